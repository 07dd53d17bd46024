import Verif.Strings.Props
import Verif.Path.Props
import Verif.FileTree.Props
import Verif.PathSyscall.Spec

/-!
# Path requests (lemmas)
-/

namespace Verif.PathSyscall

open Verif.Bounds Verif.Strings Verif.Path Verif.Path.Spec Verif.FileTree Verif.FileTree.Spec
open Verif.Callback Spec

theorem splitLoop_filter (s : List Byte) :
    (splitLoop s).filter (fun c => !(c.length == 0)) =
      (cut s).filter (fun c => !(c.length == 0)) := by
  fun_induction splitLoop s with
  | case1 s i hi _ ih =>
    obtain ⟨h1, rest, h2, h3⟩ := nextSep_some s i hi
    conv => rhs; rw [h2, cut_slash _ _ h1]
    rw [h3] at ih
    rw [h3, List.filter_cons, List.filter_cons, ih]
  | case2 h => simp [cut]
  | case3 s hn hne =>
    rw [cut_no_slash s ((nextSep_none s).1 hn)]

theorem resolve_splitLoop (st : List Comp) (s : List Byte) :
    resolve st (splitLoop s) = resolve st (cut s) := by
  rw [← resolve_filter st (splitLoop s), splitLoop_filter, resolve_filter]

/-- The components of a parsed text resolve like the text cut at the separators. -/
theorem resolve_parse (s : List Byte) : resolve [] (parse s).components = resolve [] (cut s) := by
  unfold parse
  split
  · rename_i c cs
    split
    · rename_i hc
      subst hc
      simp only [resolve_splitLoop, cut, if_true, resolve]
    · simp only [resolve_splitLoop]
  · simp only [resolve_splitLoop]

theorem cut_mem (s : List Byte) : ∀ n ∈ cut s, (47 : Byte) ∉ n ∧ ∀ b ∈ n, b ∈ s := by
  induction s with
  | nil => simp [cut]
  | cons b bs ih =>
    intro n hn
    simp only [cut] at hn
    split at hn
    · simp only [List.mem_cons] at hn
      rcases hn with rfl | hn
      · simp
      · exact ⟨(ih n hn).1, fun x hx => List.mem_cons_of_mem _ ((ih n hn).2 x hx)⟩
    · rename_i hb
      split at hn
      · simp only [List.mem_singleton] at hn
        subst hn
        simp; exact fun h => hb h.symm
      · rename_i c cs hc
        simp only [List.mem_cons] at hn
        rcases hn with rfl | hn
        · have := ih c (by rw [hc]; simp)
          refine ⟨?_, ?_⟩
          · simp only [List.mem_cons, not_or]
            exact ⟨fun h => hb h.symm, this.1⟩
          · intro x hx
            simp only [List.mem_cons] at hx ⊢
            rcases hx with rfl | hx
            · exact Or.inl rfl
            · exact Or.inr (this.2 x hx)
        · have := ih n (by rw [hc]; simp [hn])
          exact ⟨this.1, fun x hx => List.mem_cons_of_mem _ (this.2 x hx)⟩

theorem cText_eq_textOf (b : List Byte) : cText b = textOf b := by
  induction b with
  | nil => rfl
  | cons x xs ih =>
    unfold textOf at *
    simp only [cText, List.takeWhile_cons]
    split
    · rename_i h; simp [h]
    · rename_i h; simp [h, ih]

theorem cText_self (s : List Byte) (h : (0 : Byte) ∉ s) : cText s = s := by
  induction s with
  | nil => rfl
  | cons x xs ih =>
    simp only [List.mem_cons, not_or] at h
    simp only [cText]
    rw [if_neg (fun e => h.1 e.symm), ih h.2]

theorem zero_not_mem_textOf (b : List Byte) : (0 : Byte) ∉ textOf b := by
  rw [← cText_eq_textOf]
  exact fun h => cText_nonzero b 0 h rfl

/-- Names to which a text resolves are safe. -/
theorem resolve_safe (s : List Byte) (h0 : (0 : Byte) ∉ s) (r : List Comp)
    (h : resolve [] (cut s) = some r) : ∀ n ∈ r, SafeName n := by
  intro n hn
  have h1 := resolve_shape [] _ r h (by simp) (by simp)
  have h2 : n ∈ cut s := by
    have := (resolve_sublist [] _ r h).subset hn
    simpa using this
  have h3 := cut_mem s n h2
  refine ⟨fun e => h1.1 (e ▸ hn), fun e => h1.2 (by rw [show dotdot = n from e.symm]; exact hn), h3.1, fun hz => h0 (h3.2 0 hz)⟩

theorem strLoop_join (ns : List Comp) : strLoop false ns = join ns := by
  induction ns with
  | nil => rfl
  | cons n ns ih =>
    cases ns with
    | nil => simp [strLoop, join]
    | cons m ms =>
      simp only [strLoop, join, Bool.false_eq_true, if_false, List.nil_append, if_true,
        List.cons_append] at ih ⊢
      rw [ih]

theorem zero_not_mem_join (ns : List Comp) (h : ∀ n ∈ ns, (0 : Byte) ∉ n) :
    (0 : Byte) ∉ join ns := by
  induction ns with
  | nil => simp [join]
  | cons n ns ih =>
    cases ns with
    | nil => simpa [join] using h
    | cons m ms =>
      simp only [join, List.mem_append, List.mem_cons, not_or]
      refine ⟨h n (by simp), by decide, ih (fun x hx => h x (by simp [hx]))⟩

theorem tailText_eq (rest : List Comp) (h : ∀ n ∈ rest, SafeName n) :
    tailText ⟨false, rest⟩ = join rest := by
  unfold tailText Path.str
  rw [strLoop_join]
  exact cText_self _ (zero_not_mem_join rest (fun n hn => (h n hn).2.2.2))

/-- The three ways in which a path request is decided, given the private copy of the path. -/
theorem handlePath_eq (v : Env) (hist : List Export) (hs : ShortPaths hist)
    (htree : v.tree = runHistory hist) (a : Word) (b : Buf)
    (hb : getPath v a = .ok (some b)) (handler : Int → Path → Result × Log) :
    (resolve [] (cut (textOf b)) = none →
      handlePath v a handler = .ok (⟨-22, -1⟩, [])) ∧
    (∀ names, resolve [] (cut (textOf b)) = some names →
      ((∀ h rest, ¬ Answers (specHistory hist) names h rest) →
        handlePath v a handler = .ok (⟨-2, -1⟩, [])) ∧
      (∀ h rest, Answers (specHistory hist) names h rest →
        handlePath v a handler = .ok (handler h ⟨false, rest⟩))) := by
  have hview : ofView (some 0) (cText b) = .ok (parse (textOf b)) := by
    rw [cText_eq_textOf]
    unfold ofView
    split
    · rename_i h
      rw [h]; rfl
    · rfl
  have hcan := canonicalise_eq_resolve (parse (textOf b))
  rw [resolve_parse] at hcan
  unfold handlePath
  rw [hb]
  simp only [hview]
  constructor
  · intro hn
    rw [hn] at hcan
    rcases hc : (parse (textOf b)).canonicalise with ⟨ok, q⟩
    rw [hc] at hcan
    simp only at hcan
    subst hcan
    rfl
  · intro names hn
    rw [hn] at hcan
    simp only at hcan
    rw [hcan]
    simp only [htree]
    constructor
    · intro hall
      have := (lookup_none_iff hist hs ⟨(parse (textOf b)).isAbsolute, names⟩).2 hall
      rw [this]
      rfl
    · intro h rest ha
      have := (lookup_refines hist hs ⟨(parse (textOf b)).isAbsolute, names⟩ h ⟨false, rest⟩).2
        ⟨rfl, ha⟩
      rw [this]

/-- An answer of the tree comes from an export. -/
theorem answers_export (hist : List Export) (names : Names) (h : Int) (rest : Names)
    (ha : Answers (specHistory hist) names h rest) :
    ∃ e ∈ hist, e.handle = h ∧ names = namesOf e.path ++ rest ∧
      (e.isDir = false ∧ rest = [] ∨ e.isDir = true ∧ rest ≠ []) := by
  cases ha with
  | file _ hm =>
    obtain ⟨e, he, h1, h2, h3⟩ := specHistory_mem hist _ hm
    simp only at h1 h2 h3
    exact ⟨e, he, h3, by simp [h1], Or.inl ⟨h2, rfl⟩⟩
  | dir q _ _ hm hq hr =>
    obtain ⟨e, he, h1, h2, h3⟩ := specHistory_mem hist _ hm
    simp only at h1 h2 h3
    exact ⟨e, he, h3, by rw [hq, h1], Or.inr ⟨h2, hr⟩⟩

end Verif.PathSyscall
