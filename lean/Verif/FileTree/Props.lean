import Verif.FileTree.Lemmas

/-!
# C10-C13, C45: the exported file tree
-/

namespace Verif.FileTree

open Verif.Path Spec

/-- The exports in force after a history, computed on the plain list of the specification.
An export with an empty text throws and has no effect. -/
def specHistory (hist : List Export) : List Item :=
  hist.foldl (fun live e =>
    if e.path = [] then live else export_ live ⟨namesOf e.path, e.isDir, e.handle⟩) []

/-- All texts are shorter than `std::string::npos` (every C++ string is). -/
def ShortPaths (hist : List Export) : Prop := ∀ e ∈ hist, e.path.length < 2 ^ 64 - 1

theorem npos_eq : npos = 2 ^ 64 - 1 := by unfold npos; rfl

theorem Export.run_eq (d : Dir) (e : Export) (hlen : e.path.length < 2 ^ 64 - 1) :
    e.run d = if e.path = [] then (.threw, d, []) else
      addComps (if e.isDir then .dirh e.handle else .file e.handle) d (namesOf e.path) := by
  rw [← npos_eq] at hlen
  unfold Export.run addDirectory addFile
  cases e.isDir <;> simp [addLoop_eq _ _ _ hlen]

theorem namesOf_ne_nil (s : List Byte) : namesOf s ≠ [] := by
  unfold namesOf
  split
  · exact cut_ne_nil _
  · simp

theorem leafVal_run (e : Export) :
    leafVal (if e.isDir then .dirh e.handle else .file e.handle) = some (e.isDir, e.handle) := by
  cases h : e.isDir <;> simp [leafVal]

theorem agree_run (d : Dir) (live : List Item) (ha : Agree d live) (e : Export)
    (hlen : e.path.length < 2 ^ 64 - 1) :
    Agree (e.run d).2.1
      (if e.path = [] then live else export_ live ⟨namesOf e.path, e.isDir, e.handle⟩) := by
  rw [Export.run_eq d e hlen]
  split
  · exact ha
  · exact agree_add d live ha _ (namesOf_ne_nil _) _ _ _ (leafVal_run e)

theorem agree_history (hist : List Export) (hs : ShortPaths hist) :
    Agree (runHistory hist) (specHistory hist) := by
  have gen : ∀ (hist : List Export), ShortPaths hist → ∀ d live, Agree d live →
      Agree (hist.foldl (fun d e => (e.run d).2.1) d)
        (hist.foldl (fun live e =>
          if e.path = [] then live else export_ live ⟨namesOf e.path, e.isDir, e.handle⟩) live) := by
    intro hist
    induction hist with
    | nil => intro _ d live h; exact h
    | cons e hist ih =>
      intro hs d live ha
      simp only [List.foldl_cons]
      exact ih (fun x hx => hs x (by simp [hx])) _ _ (agree_run d live ha e (hs e (by simp)))
  exact gen hist hs [] [] (by intro p b h; simp [leafAt_nil_dir])

/-- A history used in examples: the directory `/lib` (handle 5), the file `/etc/a` (6), then
`/etc` as a directory (7), which hides `/etc/a`, then a refused export beneath `/lib`. -/
def exHist : List Export :=
  [⟨true, txt "/lib", 5⟩, ⟨false, txt "/etc/a", 6⟩, ⟨true, txt "/etc", 7⟩,
   ⟨false, txt "/lib/x", 8⟩]

/-- **C10.** After any history of exports, a lookup gives `(h, rest)` exactly when the plain
list of exports in force answers so: an exported directory strictly above the path with the
remaining names, or the file exported at exactly the path. -/
theorem lookup_refines (hist : List Export) (hs : ShortPaths hist) (p : Path) (h : Int)
    (rest : Path) :
    lookupFile (runHistory hist) p = some (h, rest) ↔
      rest.isAbsolute = false ∧ Answers (specHistory hist) p.components h rest.components := by
  have ha := agree_history hist hs
  rw [lookupFile, lookupLoop_iff]
  obtain ⟨abs, comps⟩ := rest
  constructor
  · rintro (⟨h1, h2⟩ | ⟨q, r, e, hr, hl, h2⟩)
    · simp only [Path.mk.injEq] at h2
      obtain ⟨rfl, rfl⟩ := h2
      exact ⟨rfl, .file h ((ha _ _ _).1 h1)⟩
    · simp only [Path.mk.injEq] at h2
      obtain ⟨rfl, rfl⟩ := h2
      exact ⟨rfl, .dir q _ h ((ha _ _ _).1 hl) e hr⟩
  · rintro ⟨h1, h2⟩
    simp only at h1
    subst h1
    generalize hc : comps = c at h2
    cases h2 with
    | file _ hm => exact Or.inl ⟨(ha _ _ _).2 hm, by simp⟩
    | dir q rest' _ hm e hr => exact Or.inr ⟨q, _, e, hr, (ha _ _ _).2 hm, by simp⟩

example : ShortPaths exHist ∧ specHistory exHist =
    [⟨[txt "etc"], true, 7⟩, ⟨[txt "lib"], true, 5⟩] := by
  constructor
  · intro e he
    simp only [exHist, List.mem_cons, List.not_mem_nil, or_false] at he
    rcases he with rfl | rfl | rfl | rfl <;> decide
  · decide

/-- **C10.** A lookup fails exactly when no export in force answers. -/
theorem lookup_none_iff (hist : List Export) (hs : ShortPaths hist) (p : Path) :
    lookupFile (runHistory hist) p = none ↔
      ∀ h rest, ¬ Answers (specHistory hist) p.components h rest := by
  constructor
  · intro hn h rest ha
    have := (lookup_refines hist hs p h ⟨false, rest⟩).2 ⟨rfl, ha⟩
    rw [hn] at this
    simp at this
  · intro hall
    rcases hl : lookupFile (runHistory hist) p with _ | ⟨h, rest⟩
    · rfl
    · exact absurd ((lookup_refines hist hs p h rest).1 hl).2 (hall _ _)

/-- **C10.** At any time the exports in force do not overlap: no export lies at or beneath
another one, so "the" answer of a lookup is unique. -/
theorem exports_disjoint (hist : List Export) (i j : Item)
    (hi : i ∈ specHistory hist) (hj : j ∈ specHistory hist) (hp : i.path <+: j.path) : i = j := by
  -- directly on the list: each export removes everything related to it
  have gen : ∀ (hist : List Export) (live : List Item),
      (∀ i ∈ live, ∀ j ∈ live, i.path <+: j.path → i = j) →
      ∀ i ∈ hist.foldl (fun live e =>
          if e.path = [] then live else export_ live ⟨namesOf e.path, e.isDir, e.handle⟩) live,
        ∀ j ∈ hist.foldl (fun live e =>
          if e.path = [] then live else export_ live ⟨namesOf e.path, e.isDir, e.handle⟩) live,
        i.path <+: j.path → i = j := by
    intro hist
    induction hist with
    | nil => intro live h; exact h
    | cons e hist ih =>
      intro live h
      simp only [List.foldl_cons]
      apply ih
      split
      · exact h
      · unfold export_
        split
        · intro i hi j hj hp
          simp only [List.mem_cons, List.mem_filter, related_not] at hi hj
          rcases hi with rfl | ⟨hi, hi1, hi2⟩
          · rcases hj with rfl | ⟨hj, hj1, hj2⟩
            · rfl
            · exact absurd hp hj1
          · rcases hj with rfl | ⟨hj, hj1, hj2⟩
            · exact absurd hp hi2
            · exact h i hi j hj hp
        · exact h
  exact gen hist [] (by simp) i hi j hj hp

example : (⟨[txt "lib"], true, 5⟩ : Item) ∈ specHistory exHist := by decide

theorem export_mem (live : List Item) (i j : Item) (h : j ∈ export_ live i) :
    j = i ∨ j ∈ live := by
  unfold export_ at h
  split at h
  · simp only [List.mem_cons, List.mem_filter] at h
    rcases h with h | h
    · exact Or.inl h
    · exact Or.inr h.1
  · exact Or.inr h

/-- Every export in force was made by a call of the history. -/
theorem specHistory_mem (hist : List Export) (i : Item) (h : i ∈ specHistory hist) :
    ∃ e ∈ hist, namesOf e.path = i.path ∧ e.isDir = i.isDir ∧ e.handle = i.handle := by
  have gen : ∀ (hist : List Export) (live : List Item) (i : Item),
      i ∈ hist.foldl (fun live e =>
          if e.path = [] then live else export_ live ⟨namesOf e.path, e.isDir, e.handle⟩) live →
      i ∈ live ∨ ∃ e ∈ hist, namesOf e.path = i.path ∧ e.isDir = i.isDir ∧ e.handle = i.handle := by
    intro hist
    induction hist with
    | nil => intro live i h; exact Or.inl h
    | cons e hist ih =>
      intro live i h
      simp only [List.foldl_cons] at h
      rcases ih _ i h with h' | ⟨x, hx, h'⟩
      · split at h'
        · exact Or.inl h'
        · rcases export_mem _ _ _ h' with rfl | h'
          · exact Or.inr ⟨e, by simp, rfl, rfl, rfl⟩
          · exact Or.inl h'
      · exact Or.inr ⟨x, by simp [hx], h'⟩
  rcases gen hist [] i h with h' | h'
  · simp at h'
  · exact h'

/-- **C11.** A handle returned by a lookup was exported earlier, with any text whatsoever: a
file handle is returned (with an empty rest) only for the very names its text stands for; a
directory handle only for paths strictly beneath, together with exactly the remaining
names. -/
theorem lookup_authority (hist : List Export) (hs : ShortPaths hist) (p : Path) (h : Int)
    (rest : Path) (hl : lookupFile (runHistory hist) p = some (h, rest)) :
    (∃ e ∈ hist, e.isDir = false ∧ e.handle = h ∧ namesOf e.path = p.components ∧
      rest.components = []) ∨
    (∃ e ∈ hist, e.isDir = true ∧ e.handle = h ∧ rest.components ≠ [] ∧
      p.components = namesOf e.path ++ rest.components) := by
  obtain ⟨_, ha⟩ := (lookup_refines hist hs p h rest).1 hl
  generalize hr : rest.components = r at ha ⊢
  cases ha with
  | file _ hm =>
    obtain ⟨e, he, h1, h2, h3⟩ := specHistory_mem hist _ hm
    exact Or.inl ⟨e, he, h2, h3, h1, rfl⟩
  | dir q _ _ hm e hne =>
    obtain ⟨x, hx, h1, h2, h3⟩ := specHistory_mem hist _ hm
    exact Or.inr ⟨x, hx, h2, h3, hne, by rw [h1]; exact e⟩

example : lookupFile (runHistory exHist) ⟨true, [txt "lib", txt "x", txt "y"]⟩ =
    some (5, ⟨false, [txt "x", txt "y"]⟩) :=
  (lookup_refines exHist (by
    intro e he
    simp only [exHist, List.mem_cons, List.not_mem_nil, or_false] at he
    rcases he with rfl | rfl | rfl | rfl <;> decide) _ _ _).2
    ⟨rfl, .dir [txt "lib"] _ 5 (by decide) rfl (by decide)⟩

/-- **C12.** `add_file`/`add_directory` returns false exactly when the path passes through an
exported directory; then the tree is unchanged (identical, so every later lookup answers as
before) and the caller keeps its handle (nothing is closed). -/
theorem refused_iff (hist : List Export) (hs : ShortPaths hist) (e : Export)
    (he : e.path.length < 2 ^ 64 - 1) (hne : e.path ≠ []) :
    ((e.run (runHistory hist)).1 = .refused ↔
      ∃ q rest h, (⟨q, true, h⟩ : Item) ∈ specHistory hist ∧ rest ≠ [] ∧
        namesOf e.path = q ++ rest) ∧
    ((e.run (runHistory hist)).1 = .refused →
      (e.run (runHistory hist)).2 = (runHistory hist, [])) ∧
    ((e.run (runHistory hist)).1 ≠ .refused → (e.run (runHistory hist)).1 = .added) := by
  have ha := agree_history hist hs
  rw [Export.run_eq _ e he, if_neg hne]
  have hb : Blocked (runHistory hist) (namesOf e.path) ↔
      ∃ q rest h, (⟨q, true, h⟩ : Item) ∈ specHistory hist ∧ rest ≠ [] ∧
        namesOf e.path = q ++ rest := by
    constructor
    · rintro ⟨q, r, h, e1, e2, e3⟩
      exact ⟨q, r, h, (ha _ _ _).1 e3, e2, e1⟩
    · rintro ⟨q, r, h, e1, e2, e3⟩
      exact ⟨q, r, h, e3, e2, (ha _ _ _).2 e1⟩
  rw [← hb]
  by_cases hbl : Blocked (runHistory hist) (namesOf e.path)
  · rw [addComps_blocked _ _ _ hbl]
    simp [hbl]
  · obtain ⟨h1, _⟩ := addComps_open _ _ (leafVal_run e) _ _ (namesOf_ne_nil _) hbl
    rw [h1]
    simp [hbl]

example : (Export.run (runHistory exHist) ⟨false, txt "/lib/x", 8⟩).1 = .refused :=
  ((refused_iff exHist (by
    intro e he
    simp only [exHist, List.mem_cons, List.not_mem_nil, or_false] at he
    rcases he with rfl | rfl | rfl | rfl <;> decide) _ (by decide) (by decide)).1).2
    ⟨[txt "lib"], [txt "x"], 5, by decide, by decide, by decide⟩

/-- **C12.** A successful export is effective: a file is then found at its path, a directory
answers for everything beneath it. -/
theorem added_reachable (hist : List Export) (hs : ShortPaths hist) (e : Export)
    (he : e.path.length < 2 ^ 64 - 1)
    (hadd : (e.run (runHistory hist)).1 = .added) (abs : Bool) :
    (e.isDir = false →
      lookupFile (e.run (runHistory hist)).2.1 ⟨abs, namesOf e.path⟩ = some (e.handle, {})) ∧
    (e.isDir = true → ∀ rest, rest ≠ [] →
      lookupFile (e.run (runHistory hist)).2.1 ⟨abs, namesOf e.path ++ rest⟩ =
        some (e.handle, ⟨false, rest⟩)) := by
  have ha := agree_history hist hs
  rw [Export.run_eq _ e he] at hadd ⊢
  by_cases hne : e.path = []
  · rw [if_pos hne] at hadd; simp at hadd
  rw [if_neg hne] at hadd ⊢
  have hbl : ¬ Blocked (runHistory hist) (namesOf e.path) := by
    intro h
    rw [addComps_blocked _ _ _ h] at hadd
    simp at hadd
  obtain ⟨_, h2⟩ := addComps_open _ _ (leafVal_run e) _ _ (namesOf_ne_nil _) hbl
  have hself := h2 (namesOf e.path)
  rw [if_pos (Or.inl (List.prefix_refl _)), if_pos rfl] at hself
  constructor
  · intro hd
    rw [lookupFile, lookupLoop_iff]
    rw [hd] at hself
    exact Or.inl ⟨by rw [hd]; exact hself, rfl⟩
  · intro hd rest hr
    rw [lookupFile, lookupLoop_iff]
    rw [hd] at hself
    exact Or.inr ⟨_, rest, rfl, hr, by rw [hd]; exact hself, rfl⟩

example : (Export.run (runHistory []) ⟨true, txt "/lib", 5⟩).1 = .added := by
  have h := refused_iff [] (by simp [ShortPaths]) ⟨true, txt "/lib", 5⟩ (by decide) (by decide)
  refine h.2.2 ?_
  rw [Ne, h.1]
  rintro ⟨q, r, h, hm, _⟩
  simp [specHistory] at hm

/-- **C13 (part that holds).** Once a directory is exported at some names and stays in force,
every path beneath it resolves to it, and this survives any further exports whose names are
not equal to or above those of the directory.  The full claim (any further exports) is false,
see `dir_handle_replaced`. -/
theorem dir_permanent_partial (hist later : List Export) (hs : ShortPaths (hist ++ later))
    (q : Names) (h : Int) (hq : (⟨q, true, h⟩ : Item) ∈ specHistory hist)
    (hlater : ∀ e ∈ later, ¬ namesOf e.path <+: q) (abs : Bool) (rest : Names)
    (hr : rest ≠ []) :
    lookupFile (runHistory (hist ++ later)) ⟨abs, q ++ rest⟩ = some (h, ⟨false, rest⟩) := by
  rw [lookup_refines _ hs]
  refine ⟨rfl, .dir q rest h ?_ rfl hr⟩
  have gen : ∀ (later : List Export), (∀ e ∈ later, ¬ namesOf e.path <+: q) →
      ∀ live : List Item, (⟨q, true, h⟩ : Item) ∈ live →
      (⟨q, true, h⟩ : Item) ∈ later.foldl (fun live e =>
        if e.path = [] then live else export_ live ⟨namesOf e.path, e.isDir, e.handle⟩) live := by
    intro later
    induction later with
    | nil => intro _ live h; exact h
    | cons e later ih =>
      intro hl live hm
      simp only [List.foldl_cons]
      apply ih (fun x hx => hl x (by simp [hx]))
      split
      · exact hm
      · unfold export_
        split
        · rename_i hal
          simp only [List.mem_cons, List.mem_filter]
          right
          refine ⟨hm, ?_⟩
          have h1 := hl e (by simp)
          rw [related_not]
          refine ⟨h1, ?_⟩
          intro hpre
          -- then the export would have been refused
          unfold allowed at hal
          simp only [Bool.not_eq_true', Bool.eq_false_iff, ne_eq] at hal
          apply hal
          rw [List.any_eq_true]
          refine ⟨_, hm, ?_⟩
          simp only [beneath, Bool.and_eq_true, Bool.not_eq_true', beq_eq_false_iff_ne, ne_eq,
            true_and, isPrefixOf_iff]
          refine ⟨hpre, ?_⟩
          intro heq
          exact h1 (by rw [← heq]; exact List.prefix_refl _)
        · exact hm
  unfold specHistory
  rw [List.foldl_append]
  exact gen later hlater _ hq

example : (⟨[txt "lib"], true, 5⟩ : Item) ∈ specHistory [⟨true, txt "/lib", 5⟩] ∧
    ¬ namesOf (txt "/etc/a") <+: [txt "lib"] := by
  refine ⟨by decide, ?_⟩
  rw [← isPrefixOf_iff]; decide

/-- **C13, exactly when a further export keeps it.**  A directory is in force at some names.  After one more export all
paths beneath still resolve to it, exactly if the names of the export are not equal to or above its names, or the export
is of the same directory again. -/
theorem dir_permanent_iff (hist : List Export) (e : Export) (hs : ShortPaths (hist ++ [e])) (q : Names) (h : Int)
    (hq : (⟨q, true, h⟩ : Item) ∈ specHistory hist) (he : e.path ≠ []) (abs : Bool) :
    (∀ rest, rest ≠ [] → lookupFile (runHistory (hist ++ [e])) ⟨abs, q ++ rest⟩ = some (h, ⟨false, rest⟩)) ↔
      (¬ namesOf e.path <+: q ∨ (e.isDir = true ∧ namesOf e.path = q ∧ e.handle = h)) := by
  have hlive : specHistory (hist ++ [e]) =
      export_ (specHistory hist) ⟨namesOf e.path, e.isDir, e.handle⟩ := by
    simp [specHistory, List.foldl_append, he]
  have hall : namesOf e.path <+: q → allowed (specHistory hist) (namesOf e.path) = true := by
    intro hp
    unfold allowed
    rw [Bool.not_eq_true', List.any_eq_false]
    rintro ⟨q', d', h'⟩ hm hb
    simp only [beneath, Bool.and_eq_true, Bool.not_eq_true', beq_eq_false_iff_ne, ne_eq, isPrefixOf_iff] at hb
    have hi := exports_disjoint hist _ _ hm hq (hb.2.1.trans hp)
    injection hi with h1 h2 h3
    subst h1
    exact hb.2.2 (hb.2.1.eq_of_length_le hp.length_le)
  constructor
  · intro hk
    by_cases hp : namesOf e.path <+: q
    · right
      have h1 := hk [[]] (by simp)
      rw [lookup_refines _ hs] at h1
      obtain ⟨-, h1⟩ := h1
      have hm : (⟨q, true, h⟩ : Item) ∈ specHistory (hist ++ [e]) := by
        generalize hr : (⟨false, [[]]⟩ : Path).components = r at h1
        cases h1 with
        | file _ hm => simp at hr
        | dir q' rest _ hm hpq hne =>
          simp only at hr
          subst hr
          have := (List.append_cancel_right hpq)
          rw [this]; exact hm
      rw [hlive] at hm
      unfold export_ at hm
      rw [if_pos (hall hp)] at hm
      simp only [List.mem_cons, List.mem_filter] at hm
      rcases hm with hm | ⟨-, hm⟩
      · injection hm with h1 h2 h3
        exact ⟨h2.symm, h1.symm, h3.symm⟩
      · rw [related_not] at hm
        exact absurd hp hm.1
    · exact .inl hp
  · intro hk rest hr
    rcases hk with hk | ⟨h1, h2, h3⟩
    · exact dir_permanent_partial hist [e] hs q h hq (by simpa using hk) abs rest hr
    · rw [lookup_refines _ hs]
      refine ⟨rfl, .dir q rest h ?_ rfl hr⟩
      rw [hlive]
      unfold export_
      rw [if_pos (hall (h2 ▸ List.prefix_refl _))]
      simp [h1, h2, h3]

-- Both kinds of export: `/lib/x` keeps the directory `/lib`, and `/lib` as a file does not.
example : (⟨[txt "lib"], true, 5⟩ : Item) ∈ specHistory [⟨true, txt "/lib", 5⟩] ∧
    ¬ namesOf (txt "/lib/x") <+: [txt "lib"] ∧ namesOf (txt "/lib") <+: [txt "lib"] := by
  refine ⟨by decide, ?_, ?_⟩ <;> rw [← isPrefixOf_iff] <;> decide

/-- **C13 is violated.** A directory handle can be replaced: after exporting the directory
`/a/b`, exporting a file at `/a` succeeds, and then a virtual tree can be built at `/a/b`; a path
beneath resolves to another handle. -/
theorem dir_handle_replaced :
    let hist : List Export :=
      [⟨true, txt "/a/b", 5⟩, ⟨false, txt "/a", 6⟩, ⟨false, txt "/a/b/c", 7⟩]
    lookupFile (runHistory (hist.take 1)) ⟨true, [txt "a", txt "b", txt "c"]⟩ =
      some (5, ⟨false, [txt "c"]⟩) ∧
    lookupFile (runHistory hist) ⟨true, [txt "a", txt "b", txt "c"]⟩ = some (7, {}) := by
  constructor
  · exact (lookup_refines _ (by
      intro e he
      simp only [List.take_succ_cons, List.take_zero, List.mem_cons, List.not_mem_nil,
        or_false] at he
      subst he; decide) _ _ _).2
      ⟨rfl, .dir [txt "a", txt "b"] _ 5 (by decide) rfl (by decide)⟩
  · exact (lookup_refines _ (by
      intro e he
      simp only [List.mem_cons, List.not_mem_nil, or_false] at he
      rcases he with rfl | rfl | rfl <;> decide) _ _ _).2
      ⟨rfl, .file 7 (by decide)⟩

/-- Text of an absolute path with the given names: `/n1/n2/...`. -/
def absText (names : Names) : List Byte := names.flatMap (fun n => slash :: n)

theorem absText_eq_strLoop (names : Names) : absText names = strLoop true names := by
  induction names with
  | nil => rfl
  | cons c cs ih =>
    have : absText (c :: cs) = slash :: c ++ absText cs := by simp [absText]
    rw [this, ih]
    simp [strLoop]

/-- **C10.** For a well-formed absolute path text `/n1/n2/...`, the names used by an export are
`n1, n2, ...`. -/
theorem namesOf_absText (names : Names) (hne : names ≠ []) (hs : ∀ n ∈ names, slash ∉ n) :
    namesOf (absText names) = names := by
  cases names with
  | nil => exact absurd rfl hne
  | cons c cs =>
    have hm : (47 : Byte) ∈ absText (c :: cs) := by simp [absText]
    unfold namesOf
    rw [if_pos hm]
    have ht : ∀ (cs : Names) (c : List Byte), (∀ n ∈ c :: cs, slash ∉ n) →
        cut (absText (c :: cs)).tail = c :: cs := by
      intro cs
      induction cs with
      | nil =>
        intro c hs
        simp only [absText, List.flatMap_cons, List.flatMap_nil, List.append_nil, List.tail_cons]
        exact cut_no_slash c (hs c (by simp))
      | cons d ds ih =>
        intro c hs
        have e1 : (absText (c :: d :: ds)).tail = c ++ slash :: (absText (d :: ds)).tail := by
          simp [absText]
        rw [e1, cut_slash _ _ (hs c (by simp)), ih d (fun n hn => hs n (by
          simp only [List.mem_cons] at hn ⊢; exact Or.inr hn))]
    exact ht cs c hs

example : absText [txt "etc", txt "a"] = txt "/etc/a" := by decide

/-- **C10, end to end on texts.** If a file is exported successfully under the text of a path
with non-empty names other than `..`, then parsing and canonicalising the same text and
looking it up yields exactly that file. -/
theorem export_lookup_text (hist : List Export) (hs : ShortPaths hist) (names : Names) (h : Int)
    (hne : names ≠ []) (hclean : ∀ n ∈ names, slash ∉ n ∧ n ≠ [] ∧ n ≠ dotdot)
    (hlen : (absText names).length < 2 ^ 64 - 1)
    (hadd : (addFile (runHistory hist) (absText names) h).1 = .added) :
    ∃ p, (parse (absText names)).canonicalise = (true, p) ∧
      lookupFile (addFile (runHistory hist) (absText names) h).2.1 p = some (h, {}) := by
  have hslash : ∀ n ∈ names, slash ∉ n := fun n hn => (hclean n hn).1
  have hnames := namesOf_absText names hne hslash
  have hparse : parse (absText names) = ⟨true, names⟩ := by
    have : absText names = Path.str ⟨true, names⟩ := absText_eq_strLoop names
    rw [this]
    apply parse_str
    · exact hslash
    · obtain ⟨l, hl⟩ : ∃ l, names.getLast? = some l := by
        cases hg : names.getLast? with
        | none => simp at hg; exact absurd hg hne
        | some l => exact ⟨l, rfl⟩
      exact ⟨l, hl, (hclean l (List.mem_of_getLast? hl)).2.1⟩
    · exact Or.inl rfl
  refine ⟨⟨true, names⟩, ?_, ?_⟩
  · rw [hparse]
    have := canonicalise_eq_resolve ⟨true, names⟩
    simp only at this
    rw [resolve_clean [] names (fun hm => (hclean _ hm).2.1 rfl)
      (fun hm => (hclean _ hm).2.2 rfl)] at this
    simpa using this
  · have := added_reachable hist hs ⟨false, absText names, h⟩ hlen hadd true
    rw [hnames] at this
    exact this.1 rfl

example : (addFile (runHistory []) (absText [txt "etc", txt "a"]) 6).1 = .added := by
  have h := refused_iff [] (by simp [ShortPaths]) ⟨false, absText [txt "etc", txt "a"], 6⟩
    (by decide) (by decide)
  refine h.2.2 ?_
  rw [Ne, h.1]
  rintro ⟨q, r, h, hm, _⟩
  simp [specHistory] at hm

/-- **C10, finding.** An export whose text has an empty name or `..` is accepted but can never be
reached through a canonicalised path (as all requests from the sandbox are). -/
theorem unreachable_export (hist : List Export) (hs : ShortPaths hist)
    (p q : Path) (hq : p.canonicalise = (true, q)) (h : Int) (rest : Path)
    (hl : lookupFile (runHistory hist) q = some (h, rest)) :
    ∃ e ∈ hist, e.handle = h ∧ [] ∉ namesOf e.path ∧ dotdot ∉ namesOf e.path := by
  obtain ⟨h1, h2, _⟩ := canonicalise_shape p q hq
  rcases lookup_authority hist hs q h rest hl with
    ⟨e, he, _, hh, hn, _⟩ | ⟨e, he, _, hh, _, hn⟩
  · exact ⟨e, he, hh, by rw [hn]; exact h1, by rw [hn]; exact h2⟩
  · rw [hn] at h1 h2
    simp only [List.mem_append, not_or] at h1 h2
    exact ⟨e, he, hh, h1.1, h2.1⟩

/-- **C10, finding.** The text `/a//b` is exported under the names `a`, (empty), `b`; the text
`foo` (no separator) under `oo`, `foo`; `a/b` under (empty), `b`. -/
theorem malformed_texts :
    namesOf (txt "/a//b") = [txt "a", [], txt "b"] ∧ namesOf (txt "foo") = [txt "oo", txt "foo"] ∧
    namesOf (txt "a/b") = [[], txt "b"] := by decide

/-- **C10, finding.** Exporting under an empty text throws `std::out_of_range` and changes
nothing. -/
theorem empty_text_throws (d : Dir) (b : Bool) (h : Int) :
    (Export.run d ⟨b, [], h⟩) = (.threw, d, []) := by
  rw [Export.run_eq _ _ (by simp)]; rfl

/-- **C45.** Exports neither lose nor duplicate a handle: after any export, the handles in the
tree together with those closed by it are the handles before together with the new one (if it
was accepted); a refused or failed export closes nothing and takes nothing. -/
theorem handles_conserved (d : Dir) (e : Export) (he : e.path.length < 2 ^ 64 - 1) :
    (handlesOf (e.run d).2.1 ++ (e.run d).2.2).Perm
      (handlesOf d ++ (if (e.run d).1 = .added then [e.handle] else [])) := by
  rw [Export.run_eq _ _ he]
  split
  · simp
  · have h := addComps_handles (if e.isDir then .dirh e.handle else .file e.handle)
      (namesOf e.path) d
    have hh : (if e.isDir then Entry.dirh e.handle else .file e.handle).handles = [e.handle] := by
      cases e.isDir <;> simp [Entry.handles]
    rw [hh] at h
    exact h

theorem leafAt_handle_mem (cs : List Comp) : ∀ d b h, leafAt d cs = some (b, h) →
    h ∈ handlesOf d := by
  have fm : ∀ (d : Dir) c e, find d c = some e → ∀ x ∈ e.handles, x ∈ handlesOf d := by
    intro d c e
    induction d with
    | nil => simp [find]
    | cons y d ih =>
      obtain ⟨k, z⟩ := y
      simp only [find]
      split
      · intro h x hx
        simp only [Option.some.injEq] at h
        subst h
        simp [handlesOf, hx]
      · intro h x hx
        simp [handlesOf, ih h x hx]
  induction cs with
  | nil => simp [leafAt]
  | cons c cs ih =>
    intro d b h hl
    simp only [leafAt] at hl
    rcases hf : find d c with _ | x
    · simp [hf] at hl
    · refine fm d c x hf h ?_
      cases x with
      | file h' =>
        simp only [hf] at hl
        split at hl <;> simp at hl
        simp [Entry.handles, hl.2]
      | dirh h' =>
        simp only [hf] at hl
        split at hl <;> simp at hl
        simp [Entry.handles, hl.2]
      | tree t =>
        simp only [hf] at hl
        simpa [Entry.handles] using ih t b h hl

/-- **C45.** A lookup never returns a handle that an export has closed, as long as every handle is
exported at most once: what a lookup returns is still owned by the tree. -/
theorem lookup_open_handle (d : Dir) (e : Export) (he : e.path.length < 2 ^ 64 - 1)
    (hnd : (e.handle :: handlesOf d).Nodup) (p rest : Path) (h : Int)
    (hl : lookupFile (e.run d).2.1 p = some (h, rest)) :
    h ∈ handlesOf (e.run d).2.1 ∧ h ∉ (e.run d).2.2 := by
  have hin : h ∈ handlesOf (e.run d).2.1 := by
    rw [lookupFile, lookupLoop_iff] at hl
    rcases hl with ⟨h1, _⟩ | ⟨q, r, _, _, h1, _⟩
    · exact leafAt_handle_mem _ _ _ _ h1
    · exact leafAt_handle_mem _ _ _ _ h1
  refine ⟨hin, fun hcl => ?_⟩
  have hp := handles_conserved d e he
  have hnd' : (handlesOf d ++ (if (e.run d).1 = .added then [e.handle] else [])).Nodup := by
    simp only [List.nodup_cons] at hnd
    split
    · rw [List.nodup_append]
      refine ⟨hnd.2, by simp, ?_⟩
      intro a ha b hb
      simp only [List.mem_singleton] at hb
      subst hb
      rintro rfl
      exact hnd.1 ha
    · simpa using hnd.2
  have := (hp.nodup_iff).2 hnd'
  rw [List.nodup_append] at this
  exact this.2.2 h hin h hcl rfl

example : ((5 : Int) :: handlesOf [(txt "a", .file 6)]).Nodup ∧
    handlesOf [(txt "a", .file 6)] = [6] := by
  constructor <;> simp [handlesOf, Entry.handles]

end Verif.FileTree
