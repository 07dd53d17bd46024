import Verif.Path.Lemmas

/-!
# C06-C09: path parsing, printing and canonicalisation
-/

namespace Verif.Path

open Spec

/-- ASCII text as bytes, for examples. -/
def txt (s : String) : List Byte := s.toList.map (fun c => UInt8.ofNat c.toNat)

/-- **C06.** Printing a parsed text gives the text back, apart from one trailing separator. -/
theorem str_parse (s : List Byte) : (parse s).str = dropTrailingSlash s := by
  unfold parse
  split
  · rename_i c cs
    split
    · rename_i hc
      subst hc
      exact strLoop_splitLoop cs
    · rename_i hc
      have h := strLoop_splitLoop (c :: cs)
      have hne : splitLoop (c :: cs) ≠ [] := by
        rw [Ne, splitLoop_eq_nil]; simp
      simp only [Path.str]
      generalize hsp : splitLoop (c :: cs) = l at h hne
      cases l with
      | nil => exact absurd rfl hne
      | cons x xs =>
        rw [← strLoop_false] at h
        unfold dropTrailingSlash at h ⊢
        rw [List.getLast?_cons_of_ne_nil (by simp)] at h
        split at h
        · rename_i hl
          rw [if_pos hl]
          simpa using h
        · rename_i hl
          rw [if_neg hl]
          simpa using h
  · simp [Path.str, splitLoop_nil, strLoop, dropTrailingSlash]

example : (parse (txt "/a//b\\/c/")).str = txt "/a//b\\/c" := by
  rw [str_parse]; decide

/-- **C06.** No component contains a separator; in particular a backslash in front of a
separator does not hide it. -/
theorem parse_no_slash (s : List Byte) : ∀ c ∈ (parse s).components, slash ∉ c := by
  unfold parse
  split
  · split
    · exact splitLoop_mem _
    · exact splitLoop_mem _
  · exact splitLoop_mem _

/-- **C06.** A text is taken as absolute exactly when it starts with a separator. -/
theorem parse_isAbsolute (s : List Byte) :
    (parse s).isAbsolute = true ↔ s.head? = some slash := by
  unfold parse
  split
  · split <;> simp_all
  · simp

example : (parse (txt "a/b")).isAbsolute = false ∧ (parse (txt "/a")).isAbsolute = true := by
  have h1 := parse_isAbsolute (txt "a/b")
  have h2 := parse_isAbsolute (txt "/a")
  exact ⟨by rw [Bool.eq_false_iff, Ne, h1]; decide, by rw [h2]; decide⟩

/-- **C06.** Printing and parsing again gives the same path object, for every path whose
names contain no separator, whose last name is not empty and which does not start with a
separator unless it is absolute.  (The excluded cases are those in which the text does not
determine the path.) -/
theorem parse_str (p : Path) (hs : ∀ c ∈ p.components, slash ∉ c)
    (hl : ∃ c, p.components.getLast? = some c ∧ c ≠ [])
    (hf : p.isAbsolute = true ∨ p.components.head? ≠ some []) :
    parse p.str = p := by
  obtain ⟨abs, cs⟩ := p
  cases cs with
  | nil => simp at hl
  | cons c cs =>
    have hl' : (c :: cs).getLast (by simp) ≠ [] := by
      obtain ⟨x, hx, hne⟩ := hl
      rw [List.getLast?_eq_some_getLast (by simp)] at hx
      simp only [Option.some.injEq] at hx
      rw [hx]; exact hne
    have hsp := splitLoop_strLoop c cs hs hl'
    cases abs with
    | true =>
      simp only [Path.str]
      rw [← strLoop_false]
      simp only [parse, if_true]
      rw [hsp]
    | false =>
      simp only [Bool.false_eq_true, List.head?_cons, false_or] at hf
      simp only [Path.str]
      cases c with
      | nil => simp at hf
      | cons b bs =>
        have hb : b ≠ slash := by
          intro h; subst h; exact hs _ (by simp : (slash :: bs) ∈ _) (by simp)
        have e : strLoop false ((b :: bs) :: cs) = b :: (bs ++ strLoop true cs) := by
          simp [strLoop]
        rw [e] at hsp ⊢
        simp only [parse, hb, if_false, hsp]

example : parse (Path.str ⟨true, [txt "a", [], txt "b"]⟩) = ⟨true, [txt "a", [], txt "b"]⟩ :=
  parse_str _ (by decide) ⟨_, rfl, by decide⟩ (Or.inl rfl)

/-- **C06.** Constructing a path from a view is defined for every non-empty view and for an
empty view followed by a readable byte other than a separator (such as the terminator of a C
string). -/
theorem ofView_ok (after : Option Byte) (s : List Byte) :
    (∃ p, ofView after s = .ok p) ↔ s ≠ [] ∨ ∃ b, after = some b ∧ b ≠ slash := by
  unfold ofView
  split
  · rename_i h
    split
    · simp_all
    · rename_i b
      split <;> simp_all
  · simp_all

/-- **C06, finding.** An empty view over memory that may not be read is undefined
behaviour. -/
theorem ofView_empty_ub : ofView none [] = .ub := rfl

/-- **C07.** After a successful canonicalisation there is no empty and no `..` component, and
absoluteness is unchanged. -/
theorem canonicalise_shape (p q : Path) (h : p.canonicalise = (true, q)) :
    [] ∉ q.components ∧ dotdot ∉ q.components ∧ q.isAbsolute = p.isAbsolute := by
  have hne : [] ∉ p.removeEmpty.components := by simp [Path.removeEmpty]
  have hloop := removeDotdotLoop_eq [] p.removeEmpty.components (by simp) (by simp) hne
  simp only [Path.canonicalise, Path.removeDotdot, Prod.mk.injEq] at h
  obtain ⟨h1, rfl⟩ := h
  simp only [List.reverse_nil, List.nil_append, List.length_nil] at hloop
  rcases hres : resolve [] p.removeEmpty.components with _ | r
  · obtain ⟨l, e, _⟩ := hloop.2 hres
    rw [e] at h1; simp at h1
  · rw [hloop.1 r hres]
    have := resolve_shape [] _ r hres (by simp) (by simp)
    exact ⟨this.1, this.2, rfl⟩

example : (parse (txt "/a//b/../c")).components = [txt "a", [], txt "b", txt "..", txt "c"] := by
  have : txt "/a//b/../c" = slash :: (txt "a" ++ slash :: ([] ++ slash :: (txt "b" ++ slash ::
    (txt ".." ++ slash :: txt "c")))) := by decide
  rw [this]
  simp only [parse, if_true]
  rw [splitLoop_slash _ _ (by decide), splitLoop_slash _ _ (by decide),
    splitLoop_slash _ _ (by decide), splitLoop_slash _ _ (by decide),
    splitLoop_no_slash _ (by decide) (by decide)]

/-- **C08.** Canonicalisation is lexical resolution with a stack: if the stack resolution
succeeds with `r`, canonicalisation succeeds with the components `r`; if it fails, so does
canonicalisation. -/
theorem canonicalise_eq_resolve (p : Path) :
    match resolve [] p.components with
    | some r => p.canonicalise = (true, ⟨p.isAbsolute, r⟩)
    | none => (p.canonicalise).1 = false := by
  have hne : [] ∉ p.removeEmpty.components := by simp [Path.removeEmpty]
  have hloop := removeDotdotLoop_eq [] p.removeEmpty.components (by simp) (by simp) hne
  simp only [List.reverse_nil, List.nil_append, List.length_nil] at hloop
  have hf : resolve [] p.removeEmpty.components = resolve [] p.components :=
    resolve_filter [] p.components
  rw [hf] at hloop
  simp only [Path.canonicalise, Path.removeDotdot]
  split
  · rename_i r hr
    rw [hloop.1 r hr]
    rfl
  · rename_i hr
    obtain ⟨l, e, _⟩ := hloop.2 hr
    rw [e]

example : resolve [] [txt "a", [], txt "b", txt "..", txt "c"] = some [txt "a", txt "c"] := by
  decide
example : (Path.canonicalise ⟨true, [txt "a", [], txt "b", txt "..", txt "c"]⟩) =
    (true, ⟨true, [txt "a", txt "c"]⟩) :=
  canonicalise_eq_resolve ⟨true, [txt "a", [], txt "b", txt "..", txt "c"]⟩

/-- **C08.** Canonicalisation succeeds exactly for the paths that never climb above their
start. -/
theorem canonicalise_succeeds_iff (p : Path) :
    (p.canonicalise).1 = true ↔ NeverClimbs p.components := by
  have h := canonicalise_eq_resolve p
  have h2 := resolve_isSome [] p.components
  simp only [List.length_nil, Nat.zero_add] at h2
  unfold NeverClimbs
  rw [← h2]
  split at h
  · rename_i r hr
    simp [h, hr]
  · rename_i hr
    simp [h, hr]

example : NeverClimbs [txt "a", txt ".."] ∧ ¬ NeverClimbs [txt "a", txt "..", txt ".."] := by
  constructor
  · exact (canonicalise_succeeds_iff ⟨true, [txt "a", txt ".."]⟩).1 (by
      have := canonicalise_eq_resolve ⟨true, [txt "a", txt ".."]⟩
      simp only [show resolve [] [txt "a", txt ".."] = some [] by decide] at this
      rw [this])
  · intro h
    exact absurd (h _ (List.prefix_refl _)) (by decide)

/-- **C07.** Canonicalising twice is the same as canonicalising once. -/
theorem canonicalise_idem (p q : Path) (h : p.canonicalise = (true, q)) :
    q.canonicalise = (true, q) := by
  obtain ⟨h1, h2, _⟩ := canonicalise_shape p q h
  have := canonicalise_eq_resolve q
  rw [resolve_clean [] q.components h1 h2] at this
  simpa using this

/-- **C07.** Whatever canonicalisation answers, no component is invented: the result's
components are a subsequence of the original ones, and absoluteness is unchanged. -/
theorem canonicalise_sublist (p : Path) :
    ((p.canonicalise).2.components).Sublist p.components ∧
      (p.canonicalise).2.isAbsolute = p.isAbsolute := by
  have hne : [] ∉ p.removeEmpty.components := by simp [Path.removeEmpty]
  have hloop := removeDotdotLoop_eq [] p.removeEmpty.components (by simp) (by simp) hne
  simp only [List.reverse_nil, List.nil_append, List.length_nil] at hloop
  have hsub : (p.removeEmpty.components).Sublist p.components := List.filter_sublist
  refine ⟨?_, rfl⟩
  simp only [Path.canonicalise, Path.removeDotdot]
  rcases hres : resolve [] p.removeEmpty.components with _ | r
  · obtain ⟨l, e, _, hl⟩ := hloop.2 hres
    rw [e]
    exact hl.trans hsub
  · rw [hloop.1 r hres]
    have := resolve_sublist [] _ r hres
    exact (by simpa using this : r.Sublist _).trans hsub

example : (Path.canonicalise ⟨true, [txt "a", txt "..", txt "..", txt "b"]⟩).1 = false := by
  have := canonicalise_eq_resolve ⟨true, [txt "a", txt "..", txt "..", txt "b"]⟩
  simpa only [show resolve [] [txt "a", txt "..", txt "..", txt "b"] = none by decide] using this

/-- **C07.** A path rejected by canonicalisation still starts with `..`, so using it
nevertheless would be visible. -/
theorem canonicalise_failure_shape (p : Path) (h : (p.canonicalise).1 = false) :
    (p.canonicalise).2.components.head? = some dotdot := by
  have hne : [] ∉ p.removeEmpty.components := by simp [Path.removeEmpty]
  have hloop := removeDotdotLoop_eq [] p.removeEmpty.components (by simp) (by simp) hne
  simp only [List.reverse_nil, List.nil_append, List.length_nil] at hloop
  simp only [Path.canonicalise, Path.removeDotdot] at h ⊢
  rcases hres : resolve [] p.removeEmpty.components with _ | r
  · obtain ⟨l, e, hh, _⟩ := hloop.2 hres
    rw [e]; exact hh
  · rw [hloop.1 r hres] at h
    simp at h

/-- **C09 (part that holds).** In a symlink-free tree, if the original path can be walked and
canonicalisation succeeds, then walking the canonical path reaches the same node, provided
no `.` component occurs before a `..` component.  The full claim (for every path) is false,
see `canonicalise_dot_disagrees`; `canonicalise_walk_iff` says exactly for which paths it holds. -/
theorem canonicalise_walk_partial (t : Tree) (n k : t.Node) (p q : Path) (a b : List Comp)
    (hp : p.components = a ++ b) (ha : [46] ∉ a) (hb : dotdot ∉ b)
    (hc : p.canonicalise = (true, q)) (hw : t.walk n p.components = some k) :
    t.walk n q.components = some k := by
  have h := canonicalise_eq_resolve p
  split at h
  · rename_i r hr
    rw [hc] at h
    simp only [Prod.mk.injEq, true_and] at h
    subst h
    simp only
    rw [hp] at hr hw
    rw [walk_append] at hw
    obtain ⟨m, hm1, hm2⟩ := Option.bind_eq_some_iff.1 hw
    rcases hra : resolve [] a with _ | ra
    · exfalso
      have h1 := (resolve_isSome [] (a ++ b)).1 (by simp [hr])
      have h2 : (resolve [] a).isSome = true :=
        (resolve_isSome [] a).2 fun p hp => h1 p (hp.trans (List.prefix_append a b))
      simp [hra] at h2
    · have hwa := walk_resolve t n n [] a ra rfl (by simp) ha hra m hm1
      rw [resolve_append [] a b ra hra] at hr
      rw [← resolve_filter] at hr
      rw [resolve_clean] at hr
      · simp only [List.reverse_reverse, Option.some.injEq] at hr
        subst hr
        rw [walk_append, hwa]
        simp only [Option.bind_some]
        rw [walk_filter]
        exact hm2
      · simp
      · intro h
        exact hb (List.mem_filter.1 h).1
  · rename_i hn
    rw [hc] at h
    simp at h

/-- The file tree of all name lists, used in examples: node = path from the root. -/
def listTree : Tree where
  Node := List Comp
  child n c := some (c :: n)
  parent n := n.tail
  up_down n c m h := by simp at h; subst h; rfl

example : listTree.walk [] [txt "a", txt "..", txt "b", txt "."] = some [txt "b"] ∧
    (Path.canonicalise ⟨true, [txt "a", txt "..", txt "b", txt "."]⟩) =
      (true, ⟨true, [txt "b", txt "."]⟩) :=
  ⟨rfl, canonicalise_eq_resolve ⟨true, [txt "a", txt "..", txt "b", txt "."]⟩⟩

/-- **C09 is violated.** For `/a/./../b`, canonicalisation gives `/a/b` while POSIX resolution
reaches `/b`: the `..` cancels the `.` instead of `a`. -/
theorem canonicalise_dot_disagrees :
    let p := parse (txt "/a/./../b")
    p.canonicalise = (true, ⟨true, [txt "a", txt "b"]⟩) ∧
    listTree.walk [] p.components = some [txt "b"] ∧
    listTree.walk [] (p.canonicalise).2.components = some [txt "b", txt "a"] := by
  have hp : parse (txt "/a/./../b") = ⟨true, [txt "a", txt ".", txt "..", txt "b"]⟩ := by
    have : txt "/a/./../b" = slash :: (txt "a" ++ slash :: (txt "." ++ slash ::
      (txt ".." ++ slash :: txt "b"))) := by decide
    rw [this]
    simp only [parse, if_true]
    rw [splitLoop_slash _ _ (by decide), splitLoop_slash _ _ (by decide),
      splitLoop_slash _ _ (by decide), splitLoop_no_slash _ (by decide) (by decide)]
  have hc : (parse (txt "/a/./../b")).canonicalise = (true, ⟨true, [txt "a", txt "b"]⟩) := by
    rw [hp]
    exact canonicalise_eq_resolve ⟨true, [txt "a", txt ".", txt "..", txt "b"]⟩
  refine ⟨hc, ?_, ?_⟩
  · rw [hp]; rfl
  · rw [hc]; rfl

/-- Names other than `.` (no counterpart in the code). -/
abbrev notDot (c : Comp) : Bool := !(c == [46])

theorem walk_notDot (t : Tree) (n : t.Node) (cs : List Comp) : t.walk n (cs.filter notDot) = t.walk n cs := by
  induction cs generalizing n with
  | nil => rfl
  | cons c cs ih =>
    by_cases hc : c = [46]
    · subst hc
      simp [Tree.walk, Tree.step, ih]
    · rw [List.filter_cons_of_pos (by simpa [notDot] using hc)]
      simp only [Tree.walk]
      congr 1
      funext m
      exact ih m

/-- A tree in which every name exists and one can go up without end: a node says how often one has gone up from the start
and which names one has gone down since. -/
def freeTree : Tree where
  Node := Nat × List Comp
  child n c := some (n.1, c :: n.2)
  parent n := match n.2 with
    | [] => (n.1 + 1, [])
    | _ :: l => (n.1, l)
  up_down n c m h := by simp at h; subst h; rfl

theorem free_walk (cs : List Comp) (hd : [46] ∉ cs) : ∀ (j : Nat) (st : List Comp),
    ∃ i l, freeTree.walk (j, st) cs = some (i, l) ∧ j ≤ i ∧ (i = j → resolve st cs = some l.reverse) := by
  induction cs with
  | nil => exact fun j st => ⟨j, st, rfl, Nat.le_refl _, fun _ => rfl⟩
  | cons c cs ih =>
    intro j st
    simp only [List.mem_cons, not_or] at hd
    by_cases hc : c = []
    · obtain ⟨i, l, h1, h2, h3⟩ := ih hd.2 j st
      refine ⟨i, l, ?_, h2, fun e => ?_⟩
      · simp only [Tree.walk, Tree.step, hc, true_or, if_true]
        exact h1
      · simp only [resolve, if_pos hc]
        exact h3 e
    · by_cases hu : c = [46, 46]
      · cases st with
        | nil =>
          obtain ⟨i, l, h1, h2, h3⟩ := ih hd.2 (j + 1) []
          refine ⟨i, l, ?_, by omega, fun e => by omega⟩
          subst hu
          exact h1
        | cons x st =>
          obtain ⟨i, l, h1, h2, h3⟩ := ih hd.2 j st
          refine ⟨i, l, ?_, h2, fun e => ?_⟩
          · subst hu
            exact h1
          · rw [resolve, if_neg hc, if_pos hu]
            exact h3 e
      · obtain ⟨i, l, h1, h2, h3⟩ := ih hd.2 j (c :: st)
        refine ⟨i, l, ?_, h2, fun e => ?_⟩
        · have hc' : ¬ c = [46] := fun e => hd.1 e.symm
          simp only [Tree.walk, Tree.step, hc, hc', or_self, if_false, if_neg hu]
          exact h1
        · simp only [resolve, if_neg hc, if_neg hu]
          exact h3 e

theorem free_walk_clean (cs : List Comp) (h : ∀ c ∈ cs, c ≠ [] ∧ c ≠ [46] ∧ c ≠ dotdot) : ∀ st : List Comp,
    freeTree.walk (0, st) cs = some (0, cs.reverse ++ st) := by
  induction cs with
  | nil => exact fun _ => rfl
  | cons c cs ih =>
    intro st
    obtain ⟨h1, h2, h3⟩ := h c (by simp)
    have := ih (fun c hc => h c (by simp [hc])) (c :: st)
    simp only [Tree.walk, Tree.step, h1, h2, or_self, if_false, if_neg h3]
    show freeTree.walk (0, c :: st) cs = _
    rw [this, List.reverse_cons, List.append_assoc]
    rfl

/-- **C09, exactly when it holds.**  Canonicalisation gives a path that leads to the same place in every tree and from
every node, exactly if it gives, apart from `.`, what lexical resolution gives for the path without its `.`. -/
theorem canonicalise_walk_iff (p q : Path) (hc : p.canonicalise = (true, q)) :
    (∀ (t : Tree) (n k : t.Node), t.walk n p.components = some k → t.walk n q.components = some k) ↔
      resolve [] (p.components.filter notDot) = some (q.components.filter notDot) := by
  have hnd : ∀ cs : List Comp, [46] ∉ cs.filter notDot := fun cs h => by
    simp [notDot] at h
  constructor
  · intro h
    obtain ⟨i, l, h1, h2, h3⟩ := free_walk (p.components.filter notDot) (hnd _) 0 []
    obtain ⟨q1, q2, _⟩ := canonicalise_shape p q hc
    have hq := free_walk_clean (q.components.filter notDot) (fun c hcm => by
      refine ⟨fun e => q1 ?_, fun e => hnd q.components (e ▸ hcm), fun e => q2 ?_⟩
      · exact e ▸ (List.mem_filter.1 hcm).1
      · exact e ▸ (List.mem_filter.1 hcm).1) []
    have e1 := (walk_notDot freeTree (0, []) p.components).symm.trans h1
    have hq := ((walk_notDot freeTree (0, []) q.components).symm.trans hq).symm.trans (h freeTree _ _ e1)
    have hq := Prod.mk.inj (Option.some.inj hq)
    rw [List.append_nil] at hq
    rw [h3 hq.1.symm, ← hq.2, List.reverse_reverse]
  · intro h t n k hw
    rw [← walk_notDot] at hw ⊢
    exact walk_resolve t n n [] _ _ rfl (by simp) (hnd _) h k hw

/-- `/a/./b/..`, where a `.` precedes `..` and all is well, and `/a/./../b`, where it is not. -/
example : (Path.canonicalise ⟨true, [txt "a", txt ".", txt "b", txt ".."]⟩) =
      (true, ⟨true, [txt "a", txt "."]⟩) ∧
    resolve [] ([txt "a", txt ".", txt "b", txt ".."].filter notDot) = some ([txt "a", txt "."].filter notDot) ∧
    resolve [] ([txt "a", txt ".", txt "..", txt "b"].filter notDot) ≠ some ([txt "a", txt "b"].filter notDot) :=
  ⟨canonicalise_eq_resolve ⟨true, [txt "a", txt ".", txt "b", txt ".."]⟩, by decide, by decide⟩

/-- **C08.** Making a relative path absolute and canonicalising it resolves the path starting
from the base directory. -/
theorem makeAbsolute_canonicalise (debug : Bool) (p base : Path) (hp : p.isAbsolute = false)
    (r : List Comp) (hr : resolve [] (base.components ++ p.components) = some r) :
    ∃ q, p.makeAbsolute debug base = .ok q ∧ q.canonicalise = (true, ⟨true, r⟩) := by
  refine ⟨⟨true, base.components ++ p.components⟩, by simp [Path.makeAbsolute, hp], ?_⟩
  have := canonicalise_eq_resolve ⟨true, base.components ++ p.components⟩
  simpa only [hr] using this

example : resolve [] ([txt "home", txt "u"] ++ [txt "..", txt "x"]) =
    some [txt "home", txt "x"] := by decide

/-- **C08.** A path that is absolute already: with assertions the host ends; without, the result is what the path would name beneath the base, which is not the path
unless the base is the root. -/
theorem makeAbsolute_absolute (p base : Path) (hp : p.isAbsolute = true) :
    p.makeAbsolute true base = .abort ∧ p.makeAbsolute false base = .ok ⟨true, base.components ++ p.components⟩ ∧
    (p.makeAbsolute false base = .ok p ↔ base.components = []) := by
  obtain ⟨a, cs⟩ := p
  simp only at hp
  subst hp
  simp [Path.makeAbsolute]

example : (⟨true, [txt "x"]⟩ : Path).makeAbsolute false ⟨true, [txt "home"]⟩ = .ok ⟨true, [txt "home", txt "x"]⟩ := by decide

end Verif.Path
