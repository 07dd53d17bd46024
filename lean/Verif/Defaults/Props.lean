import Verif.Defaults.Model
import Verif.FileTree.Props

/-!
# What a new sandbox exports: property C65
-/

namespace Verif.Defaults

open Verif.FileTree Verif.FileTree.Spec Verif.Fd Verif.Path

/-! ### Specification -/

/-- The names of the four paths and which of them are directories. -/
def allowedNames : List (Bool × Names) :=
  [(true, [bytes "lib"]), (true, [bytes "usr", bytes "lib"]), (true, [bytes "usr", bytes "local", bytes "lib"]),
   (false, [bytes "etc", bytes "ld.so.cache"])]

/-- The text of a path. -/
def text (ns : Names) : List Byte := ns.flatMap (fun n => 47 :: n)

/-! ### C65 -/

/-- The exports that are made, and the table: the constructor without the tree. -/
def got (disk : List Byte → Option Obj) (lim : Nat) : List (Bool × List Byte) → Table → List Export × Table
  | [], t => ([], t)
  | d :: ds, t =>
    match openPath disk lim t d.2 with
    | (fd, t') =>
      if 0 < fd then
        let r := got disk lim ds t'
        (⟨d.1, d.2, fd⟩ :: r.1, r.2)
      else got disk lim ds t'

theorem foldl_got (disk : List Byte → Option Obj) (lim : Nat) (ds : List (Bool × List Byte)) : ∀ (d : Dir) (t : Table),
    ds.foldl (addOne disk lim) (d, t) = ((got disk lim ds t).1.foldl (fun d e => (e.run d).2.1) d, (got disk lim ds t).2) := by
  induction ds with
  | nil => intro d t; rfl
  | cons x ds ih =>
    intro d t
    rw [List.foldl_cons, got]
    rcases ho : openPath disk lim t x.2 with ⟨fd, t'⟩
    simp only [addOne, ho]
    split
    · rw [ih]
      rfl
    · rw [ih]

theorem construct_got (disk : List Byte → Option Obj) (lim : Nat) (t : Table) :
    construct disk lim t = (runHistory (got disk lim defaults t).1, (got disk lim defaults t).2) :=
  foldl_got disk lim defaults [] t

theorem openPath_keeps {disk : List Byte → Option Obj} {lim : Nat} {t t' : Table} {p : List Byte} {fd : Int}
    (h : openPath disk lim t p = (fd, t')) :
    (∀ i o, t i = some o → t' i = some o) ∧ (0 ≤ fd → ∃ o, disk p = some o ∧ t'.at fd = some o) := by
  rw [openPath] at h
  split at h
  · rename_i o ho
    rw [create] at h
    split at h
    · rename_i n hn
      simp only [Prod.mk.injEq] at h
      obtain ⟨rfl, rfl⟩ := h
      have := (lowest_some.1 hn).2.1
      refine ⟨fun i o' hi => ?_, fun _ => ⟨o, ho, ?_⟩⟩
      · rw [put_ne _ _ (by rintro rfl; rw [this] at hi; simp at hi)]
        exact hi
      · simp [Table.at, Table.put]
    · simp only [Prod.mk.injEq] at h
      obtain ⟨rfl, rfl⟩ := h
      exact ⟨fun _ _ h => h, by simp⟩
  · simp only [Prod.mk.injEq] at h
    obtain ⟨rfl, rfl⟩ := h
    exact ⟨fun _ _ h => h, by simp⟩

theorem got_mem (disk : List Byte → Option Obj) (lim : Nat) (ds : List (Bool × List Byte)) : ∀ (t : Table),
    (∀ i o, t i = some o → (got disk lim ds t).2 i = some o) ∧
    ∀ e ∈ (got disk lim ds t).1, (e.isDir, e.path) ∈ ds ∧ 0 < e.handle ∧
      ∃ o, disk e.path = some o ∧ (got disk lim ds t).2.at e.handle = some o := by
  induction ds with
  | nil => intro t; simp [got]
  | cons d ds ih =>
    intro t
    rcases ho : openPath disk lim t d.2 with ⟨fd, t'⟩
    obtain ⟨k1, k2⟩ := openPath_keeps ho
    obtain ⟨i1, i2⟩ := ih t'
    simp only [got, ho]
    split
    · rename_i hfd
      refine ⟨fun i o h => i1 i o (k1 i o h), fun e he => ?_⟩
      simp only [List.mem_cons] at he
      rcases he with rfl | he
      · obtain ⟨o, h1, h2⟩ := k2 (by omega)
        refine ⟨List.mem_cons_self, hfd, o, h1, ?_⟩
        simp only [Table.at] at h2 ⊢
        rw [if_pos (by omega)] at h2 ⊢
        exact i1 _ _ h2
      · obtain ⟨h1, h2⟩ := i2 e he
        exact ⟨List.mem_cons_of_mem _ h1, h2⟩
    · refine ⟨fun i o h => i1 i o (k1 i o h), fun e he => ?_⟩
      obtain ⟨h1, h2⟩ := i2 e he
      exact ⟨List.mem_cons_of_mem _ h1, h2⟩

theorem defaults_names : ∀ d ∈ defaults, (d.1, namesOf d.2) ∈ allowedNames ∧ d.2 = text (namesOf d.2) ∧ d.2 ≠ [] ∧
    d.2.length < 2 ^ 64 - 1 := by
  decide +kernel

theorem got_short (disk : List Byte → Option Obj) (lim : Nat) (t : Table) : ShortPaths (got disk lim defaults t).1 := by
  intro e he
  exact (defaults_names _ ((got_mem disk lim defaults t).2 e he).1).2.2.2

/-- **C65, nothing else.**  In a new sandbox a path is found only beneath one of the three library directories or as the linker's
cache, and the handle that is found is an open descriptor of exactly that directory or file. -/
theorem defaults_only (disk : List Byte → Option Obj) (lim : Nat) (t : Table) (p rest : Path) (h : Int)
    (hl : lookupFile (construct disk lim t).1 p = some (h, rest)) :
    ∃ d ns o, (d, ns) ∈ allowedNames ∧ disk (text ns) = some o ∧ (construct disk lim t).2.at h = some o ∧
      p.components = ns ++ rest.components ∧ (d = true ↔ rest.components ≠ []) := by
  rw [construct_got] at hl ⊢
  have hm := (got_mem disk lim defaults t).2
  rcases lookup_authority _ (got_short disk lim t) p h rest hl with ⟨e, he, h1, h2, h3, h4⟩ | ⟨e, he, h1, h2, h3, h4⟩
  · obtain ⟨m1, _, o, m2, m3⟩ := hm e he
    obtain ⟨d1, d2, _⟩ := defaults_names _ m1
    simp only at d1 d2
    refine ⟨e.isDir, namesOf e.path, o, d1, by rw [← d2]; exact m2, by rw [← h2]; exact m3, by rw [h3, h4]; simp, ?_⟩
    rw [h1, h4]
    simp
  · obtain ⟨m1, _, o, m2, m3⟩ := hm e he
    obtain ⟨d1, d2, _⟩ := defaults_names _ m1
    simp only at d1 d2
    refine ⟨e.isDir, namesOf e.path, o, d1, by rw [← d2]; exact m2, by rw [← h2]; exact m3, h4, ?_⟩
    rw [h1]
    simp [h3]

/-- Exports of unrelated paths do not displace each other. -/
theorem spec_unrelated (hist : List Export) : ∀ live : List Item,
    (hist.map (fun e => namesOf e.path)).Pairwise (fun a b => related b a = false) →
    (∀ e ∈ hist, e.path ≠ [] ∧ ∀ i ∈ live, related (namesOf e.path) i.path = false) →
    hist.foldl (fun live e => if e.path = [] then live else export_ live ⟨namesOf e.path, e.isDir, e.handle⟩) live =
      (hist.map fun e => (⟨namesOf e.path, e.isDir, e.handle⟩ : Item)).reverse ++ live := by
  induction hist with
  | nil => intro live _ _; simp
  | cons e hist ih =>
    intro live hp hl
    obtain ⟨hne, hlive⟩ := hl e List.mem_cons_self
    have hex : export_ live ⟨namesOf e.path, e.isDir, e.handle⟩ = ⟨namesOf e.path, e.isDir, e.handle⟩ :: live := by
      have ha : allowed live (namesOf e.path) = true := by
        simp only [allowed, Bool.not_eq_true', List.any_eq_false]
        intro i hi
        have := hlive i hi
        simp only [related, Bool.or_eq_false_iff] at this
        simp [beneath, this.2]
      simp only [export_, ha, if_true]
      congr 1
      rw [List.filter_eq_self]
      intro i hi
      simp [hlive i hi]
    rw [List.foldl_cons, if_neg hne, hex, ih]
    · simp
    · exact (List.pairwise_cons.1 hp).2
    · intro x hx
      obtain ⟨h1, h2⟩ := hl x (List.mem_cons_of_mem _ hx)
      refine ⟨h1, fun i hi => ?_⟩
      simp only [List.mem_cons] at hi
      rcases hi with rfl | hi
      · exact (List.pairwise_cons.1 hp).1 _ (List.mem_map_of_mem hx)
      · exact h2 i hi

theorem defaults_unrelated : (defaults.map (fun d => namesOf d.2)).Pairwise (fun a b => related b a = false) := by
  decide +kernel

theorem got_sublist (disk : List Byte → Option Obj) (lim : Nat) (ds : List (Bool × List Byte)) : ∀ (t : Table),
    ((got disk lim ds t).1.map fun e => (e.isDir, e.path)).Sublist ds := by
  induction ds with
  | nil => intro t; simp [got]
  | cons d ds ih =>
    intro t
    rcases ho : openPath disk lim t d.2 with ⟨fd, t'⟩
    simp only [got, ho]
    split
    · exact (ih t').cons_cons d
    · exact (ih t').cons d

theorem got_spec (disk : List Byte → Option Obj) (lim : Nat) (t : Table) (e : Export) (he : e ∈ (got disk lim defaults t).1) :
    (⟨namesOf e.path, e.isDir, e.handle⟩ : Item) ∈ specHistory (got disk lim defaults t).1 := by
  have hsub : ((got disk lim defaults t).1.map (fun e => namesOf e.path)).Sublist (defaults.map (fun d => namesOf d.2)) := by
    have := (got_sublist disk lim defaults t).map (fun d => namesOf d.2)
    rw [List.map_map] at this
    exact this
  rw [specHistory, spec_unrelated _ [] (defaults_unrelated.sublist hsub)]
  · simp only [List.append_nil, List.mem_reverse]
    exact List.mem_map_of_mem (f := fun e => (⟨namesOf e.path, e.isDir, e.handle⟩ : Item)) he
  · intro x hx
    exact ⟨(defaults_names _ ((got_mem disk lim defaults t).2 x hx).1).2.2.1, by simp⟩

theorem openPath_room {disk : List Byte → Option Obj} {lim b : Nat} {t : Table} {p : List Byte} {o : Obj} (h0 : t 0 ≠ none)
    (hb : ∀ i, b ≤ i → t i = none) (hl : b < lim) (hd : disk p = some o) : 0 < (openPath disk lim t p).1 := by
  rw [openPath, hd]
  simp only [create]
  cases hn : lowest lim t with
  | none => exact absurd (hb b (Nat.le_refl b)) (lowest_none.1 hn b hl)
  | some n =>
    simp only
    have := (lowest_some.1 hn).2.1
    have : n ≠ 0 := fun h => h0 (h ▸ this)
    omega

theorem openPath_bound {disk : List Byte → Option Obj} {lim b : Nat} {t : Table} {p : List Byte}
    (hb : ∀ i, b ≤ i → t i = none) (hl : b < lim) : ∀ i, b + 1 ≤ i → (openPath disk lim t p).2 i = none := by
  intro i hi
  rw [openPath]
  split
  · simp only [create]
    cases hn : lowest lim t with
    | none => exact absurd (hb b (Nat.le_refl b)) (lowest_none.1 hn b hl)
    | some n =>
      have hnb : n ≤ b := by
        rcases Nat.lt_or_ge b n with h | h
        · exact absurd (hb b (Nat.le_refl b)) ((lowest_some.1 hn).2.2 b h)
        · exact h
      simp only
      rw [put_ne _ _ (by omega)]
      exact hb i (by omega)
  · exact hb i (by omega)

theorem got_all {disk : List Byte → Option Obj} {lim : Nat} (ds : List (Bool × List Byte)) : ∀ (t : Table) (b : Nat), t 0 ≠ none →
    (∀ i, b ≤ i → t i = none) → b + ds.length ≤ lim → ∀ d ∈ ds, disk d.2 ≠ none →
    ∃ e ∈ (got disk lim ds t).1, (e.isDir, e.path) = d := by
  induction ds with
  | nil => simp
  | cons x ds ih =>
    intro t b h0 hb hl d hd hk
    rcases ho : openPath disk lim t x.2 with ⟨fd, t'⟩
    simp only [List.length_cons] at hl
    have hb' := openPath_bound (disk := disk) (p := x.2) hb (by omega : b < lim)
    rw [ho] at hb'
    have h0' : t' 0 ≠ none := by
      rcases h : t 0 with _ | o
      · exact absurd h h0
      · rw [(openPath_keeps ho).1 0 o h]
        simp
    have ih' := ih t' (b + 1) h0' hb' (by omega)
    simp only [got, ho]
    simp only [List.mem_cons] at hd
    rcases hd with rfl | hd
    · rcases hdd : disk d.2 with _ | o
      · exact absurd hdd hk
      · have := openPath_room h0 hb (by omega : b < lim) hdd
        rw [ho] at this
        simp only at this
        simp only [this, if_true]
        exact ⟨_, List.mem_cons_self, rfl⟩
    · obtain ⟨e, he, h1⟩ := ih' d hd hk
      split
      · exact ⟨e, List.mem_cons_of_mem _ he, h1⟩
      · exact ⟨e, he, h1⟩

/-- **C65, all of them (partial).**  If descriptor 0 is in use and there is room for four more, each of the four that exists can be found:
the directories answer for everything beneath them and the cache for itself.  What is missing: descriptor 0 free, see
`first_default_lost`, and little room; for the whole constructor see `Make.library_exports`. -/
theorem defaults_all_partial (disk : List Byte → Option Obj) (lim : Nat) (t : Table) (b : Nat) (h0 : t 0 ≠ none)
    (hb : ∀ i, b ≤ i → t i = none) (hl : b + 4 ≤ lim) {d : Bool} {ns : Names} (hd : (d, ns) ∈ allowedNames) {o : Obj}
    (ho : disk (text ns) = some o) (abs : Bool) (rest : Names) (hr : d = true ↔ rest ≠ []) :
    ∃ h, lookupFile (construct disk lim t).1 ⟨abs, ns ++ rest⟩ = some (h, ⟨false, rest⟩) ∧ (construct disk lim t).2.at h = some o := by
  have hall : ∀ x ∈ allowedNames, ∃ y ∈ defaults, y.1 = x.1 ∧ y.2 = text x.2 ∧ namesOf y.2 = x.2 := by decide +kernel
  obtain ⟨y, hy, y1, y2, y3⟩ := hall _ hd
  simp only at y1 y2 y3
  obtain ⟨e, he, h1⟩ := got_all (disk := disk) (lim := lim) defaults t b h0 hb (by simpa [defaults] using hl) y hy (by rw [y2, ho]; simp)
  have hs := got_spec disk lim t e he
  obtain ⟨_, _, o', m2, m3⟩ := (got_mem disk lim defaults t).2 e he
  have e1 : e.isDir = d := by rw [← y1, ← h1]
  have e2 : e.path = text ns := by rw [← y2, ← h1]
  have e3 : namesOf e.path = ns := by rw [← y3, ← h1]
  rw [e2, ho, Option.some.injEq] at m2
  rw [construct_got]
  refine ⟨e.handle, ?_, by rw [m2]; exact m3⟩
  rw [lookup_refines _ (got_short disk lim t)]
  refine ⟨rfl, ?_⟩
  rw [e1, e3] at hs
  cases d with
  | true => exact .dir ns rest e.handle hs rfl (hr.1 rfl)
  | false =>
    have : rest = [] := by
      rcases rest with _ | ⟨x, xs⟩
      · rfl
      · exact absurd (hr.2 (by simp)) (by simp)
    subst this
    simp only [List.append_nil]
    exact .file e.handle hs

/-- Which of the four a new sandbox has: those that exist; but if descriptor 0 is free in the host, not the first of these. -/
def present (disk : List Byte → Option Obj) (t : Table) : List (Bool × Names) :=
  let l := allowedNames.filter (fun x => (disk (text x.2)).isSome)
  if t 0 = none then l.drop 1 else l

theorem got_eq {disk : List Byte → Option Obj} {lim : Nat} (ds : List (Bool × List Byte)) : ∀ (t : Table) (b : Nat),
    (∀ i, b ≤ i → t i = none) → b + ds.length ≤ lim →
    (got disk lim ds t).1.map (fun e => (e.isDir, e.path)) =
      if t 0 = none then (ds.filter (fun d => (disk d.2).isSome)).drop 1 else ds.filter (fun d => (disk d.2).isSome) := by
  induction ds with
  | nil => simp [got]
  | cons x ds ih =>
    intro t b hb hl
    rcases ho : openPath disk lim t x.2 with ⟨fd, t'⟩
    simp only [List.length_cons] at hl
    have hb' := openPath_bound (disk := disk) (p := x.2) hb (by omega : b < lim)
    rw [ho] at hb'
    have ih' := ih t' (b + 1) hb' (by omega)
    rcases hd : disk x.2 with _ | o
    · simp only [openPath, hd, Prod.mk.injEq] at ho
      obtain ⟨rfl, rfl⟩ := ho
      rw [List.filter_cons_of_neg (by simp [hd]), ← ih']
      simp [got, openPath, hd]
    · rw [List.filter_cons_of_pos (by simp [hd]), List.drop_succ_cons, List.drop_zero]
      simp only [got, ho]
      rw [openPath, hd] at ho
      simp only [create] at ho
      rcases hn : lowest lim t with _ | n
      · exact absurd (hb b (Nat.le_refl b)) (lowest_none.1 hn b (by omega))
      · obtain ⟨-, n1, n2⟩ := lowest_some.1 hn
        simp only [hn, Prod.mk.injEq] at ho
        obtain ⟨rfl, rfl⟩ := ho
        by_cases h0 : t 0 = none
        · have hz : n = 0 := Classical.byContradiction fun e => n2 0 (by omega) h0
          subst hz
          rw [if_neg (by omega), if_pos h0, ih', if_neg (by simp [Table.put])]
        · have hz : n ≠ 0 := fun e => h0 (e ▸ n1)
          rw [if_pos (by omega), if_neg h0, List.map_cons, ih', if_neg]
          rw [put_ne _ _ (by omega)]
          exact h0

theorem got_present {disk : List Byte → Option Obj} {lim : Nat} {t : Table} {b : Nat} (hb : ∀ i, b ≤ i → t i = none)
    (hl : b + 4 ≤ lim) :
    (got disk lim defaults t).1.map (fun e => (e.isDir, namesOf e.path)) = present disk t := by
  have h := congrArg (List.map (fun d : Bool × List Byte => (d.1, namesOf d.2)))
    (got_eq (disk := disk) (lim := lim) defaults t b hb (by simpa [defaults] using hl))
  rw [List.map_map] at h
  refine h.trans ?_
  have hm : defaults.map (fun d => (d.1, namesOf d.2)) = allowedNames := by decide +kernel
  have hf : (defaults.filter (fun d => (disk d.2).isSome)).map (fun d => (d.1, namesOf d.2)) =
      allowedNames.filter (fun x => (disk (text x.2)).isSome) := by
    rw [← hm, List.filter_map]
    refine congrArg _ (List.filter_congr fun d hd => ?_)
    simp only [Function.comp]
    rw [← (defaults_names d hd).2.1]
  unfold present
  split
  · rw [← hf, List.map_drop]
  · exact hf

/-- What can be found, from what has been exported. -/
theorem exact_of_got {disk : List Byte → Option Obj} {lim : Nat} {t : Table} {l : List (Bool × Names)}
    (hl : (got disk lim defaults t).1.map (fun e => (e.isDir, namesOf e.path)) = l) (p rest : Path) :
    (∃ h, lookupFile (construct disk lim t).1 p = some (h, rest)) ↔
      rest.isAbsolute = false ∧ ∃ x ∈ l, p.components = x.2 ++ rest.components ∧ (x.1 = true ↔ rest.components ≠ []) := by
  rw [construct_got, ← hl]
  simp only [lookup_refines _ (got_short disk lim t)]
  constructor
  · rintro ⟨h, ha, hr⟩
    refine ⟨ha, ?_⟩
    have hlk := (lookup_refines _ (got_short disk lim t) p h rest).2 ⟨ha, hr⟩
    rcases lookup_authority _ (got_short disk lim t) p h rest hlk with ⟨e, he, h1, h2, h3, h4⟩ | ⟨e, he, h1, h2, h3, h4⟩
    · refine ⟨_, List.mem_map_of_mem he, ?_, ?_⟩
      · rw [h3, h4]
        simp
      · rw [h1, h4]
        simp
    · refine ⟨_, List.mem_map_of_mem he, h4, ?_⟩
      rw [h1]
      simp [h3]
  · rintro ⟨ha, x, hx, h1, h2⟩
    obtain ⟨e, he, rfl⟩ := List.mem_map.1 hx
    have hs := got_spec disk lim t e he
    refine ⟨e.handle, ha, ?_⟩
    simp only at h1 h2
    rw [h1]
    cases hd : e.isDir with
    | true => exact .dir _ _ _ (hd ▸ hs) rfl (h2.1 hd)
    | false =>
      have : rest.components = [] := Classical.byContradiction fun hc => by
        have := h2.2 hc
        rw [hd] at this
        cases this
      rw [this, List.append_nil]
      exact .file _ (hd ▸ hs)

/-- **C65, exactly.**  With room for four more descriptors, a path is found in a new sandbox exactly if it is beneath one of the
directories that exist or is the cache, and that is not the first of what exists in a host whose descriptor 0 is free. -/
theorem defaults_exact (disk : List Byte → Option Obj) (lim : Nat) (t : Table) (b : Nat) (hb : ∀ i, b ≤ i → t i = none)
    (hl : b + 4 ≤ lim) (p rest : Path) :
    (∃ h, lookupFile (construct disk lim t).1 p = some (h, rest)) ↔
      rest.isAbsolute = false ∧ ∃ x ∈ present disk t, p.components = x.2 ++ rest.components ∧
        (x.1 = true ↔ rest.components ≠ []) :=
  exact_of_got (got_present hb hl) p rest

/-- With descriptor 0 free and no `/lib`, it is `/usr/lib` that is lost. -/
example : present (fun p => if p = bytes "/lib" then none else some ⟨p.length, false⟩) (fun _ => none) =
    [(true, [bytes "usr", bytes "local", bytes "lib"]), (false, [bytes "etc", bytes "ld.so.cache"])] := by
  decide +kernel

/-- A disk with all four and a host with the usual three descriptors. -/
example : (fun i => if i < 3 then some (⟨i, true⟩ : Obj) else none : Table) 0 ≠ none ∧
    lookupFile (construct (fun p => some ⟨p.length, false⟩) 64 (fun i => if i < 3 then some ⟨i, true⟩ else none)).1
      ⟨true, [bytes "usr", bytes "lib", bytes "libc.so"]⟩ = some (4, ⟨false, [bytes "libc.so"]⟩) := by
  refine ⟨by decide, ?_⟩
  have h : got (fun p => some ⟨p.length, false⟩) 64 defaults (fun i => if i < 3 then some ⟨i, true⟩ else none) |>.1 |> (· =
      [⟨true, bytes "/lib", 3⟩, ⟨true, bytes "/usr/lib", 4⟩, ⟨true, bytes "/usr/local/lib", 5⟩, ⟨false, bytes "/etc/ld.so.cache", 6⟩]) := by
    decide +kernel
  rw [construct_got, h]
  rw [lookup_refines _ (by unfold ShortPaths; decide +kernel)]
  exact ⟨rfl, .dir [bytes "usr", bytes "lib"] _ 4 (by decide +kernel) rfl (by decide)⟩

/-- **The dispatcher alone, with descriptor 0 free.**  Whatever else is open and on disk: the directory `/lib` is opened as
descriptor 0, is not exported, and stays open.  In a `Library` descriptor 0 is never free at that point, see `Make.library_exports`. -/
theorem first_default_lost (disk : List Byte → Option Obj) (lim : Nat) (t : Table) (o : Obj) (hlim : 0 < lim) (h0 : t 0 = none)
    (hd : disk (bytes "/lib") = some o) :
    (construct disk lim t).2 0 = some o ∧
    (∀ abs rest, lookupFile (construct disk lim t).1 ⟨abs, bytes "lib" :: rest⟩ = none) ∧
    ∀ p h rest, lookupFile (construct disk lim t).1 p = some (h, rest) → h ≠ 0 := by
  have hlow : lowest lim t = some 0 := lowest_some.2 ⟨hlim, h0, by simp⟩
  have hg : got disk lim defaults t = got disk lim (defaults.drop 1) (t.put 0 (some o)) := by
    rw [show defaults = (true, bytes "/lib") :: defaults.drop 1 from rfl, got]
    simp only [openPath, hd, create, hlow]
    simp
  rw [construct_got]
  refine ⟨?_, ?_, ?_⟩
  · rw [hg]
    exact (got_mem disk lim (defaults.drop 1) (t.put 0 (some o))).1 0 o (by simp [Table.put])
  · intro abs rest
    rcases hl : lookupFile (runHistory (got disk lim defaults t).1) ⟨abs, bytes "lib" :: rest⟩ with _ | ⟨h, r⟩
    · rfl
    · have hn : ∀ d ∈ defaults.drop 1, (namesOf d.2).head? ≠ some (bytes "lib") ∧ namesOf d.2 ≠ [] := by decide +kernel
      have key : ∀ e ∈ (got disk lim defaults t).1, ∀ r' : Names, bytes "lib" :: rest ≠ namesOf e.path ++ r' := by
        intro e he r' heq
        rw [hg] at he
        obtain ⟨n1, n2⟩ := hn _ ((got_mem disk lim (defaults.drop 1) (t.put 0 (some o))).2 e he).1
        simp only at n1 n2
        cases hne : namesOf e.path with
        | nil => exact n2 hne
        | cons c cs =>
          rw [hne] at heq n1
          simp only [List.cons_append, List.cons.injEq] at heq
          simp [heq.1] at n1
      rcases lookup_authority _ (got_short disk lim t) _ _ _ hl with ⟨e, he, _, _, h3, h4⟩ | ⟨e, he, _, _, _, h4⟩
      · exact absurd (by simpa using h3.symm) (key e he [])
      · exact absurd h4 (key e he r.components)
  · intro p h rest hl
    rcases lookup_authority _ (got_short disk lim t) _ _ _ hl with ⟨e, he, _, h2, _⟩ | ⟨e, he, _, h2, _⟩
    · have := ((got_mem disk lim defaults t).2 e he).2.1
      omega
    · have := ((got_mem disk lim defaults t).2 e he).2.1
      omega

end Verif.Defaults
