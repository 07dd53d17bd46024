import Verif.FileTree.Model
import Verif.FileTree.Spec
import Verif.Path.Props

namespace Verif.FileTree

open Verif.Path Spec

/-! ### Association lists -/

theorem find_assign (d : Dir) (c c' : Comp) (e : Entry) :
    find (assign d c e) c' = if c = c' then some e else find d c' := by
  induction d with
  | nil => simp [assign, find]
  | cons x d ih =>
    obtain ⟨k, y⟩ := x
    simp only [assign]
    split
    · rename_i h
      subst h
      simp only [find]
      split <;> rfl
    · rename_i h
      simp only [find, ih]
      split
      · rename_i h2
        subst h2
        rw [if_neg (fun h' => h (Eq.symm h'))]
      · rfl

theorem assign_same (d : Dir) (c : Comp) (e : Entry) (h : find d c = some e) :
    assign d c e = d := by
  induction d with
  | nil => simp [find] at h
  | cons x d ih =>
    obtain ⟨k, y⟩ := x
    simp only [find] at h
    simp only [assign]
    split
    · rename_i hk
      rw [if_pos hk] at h
      simp only [Option.some.injEq] at h
      rw [h]
    · rename_i hk
      rw [if_neg hk] at h
      rw [ih h]

/-- `get_dir` as a function of the entry found. -/
def dirView : Option Entry → DirLookup
  | none => .monostate
  | some (.file _) => .monostate
  | some (.tree t) => .dir t
  | some (.dirh h) => .handle h

theorem getDir_eq (d : Dir) (c : Comp) (x : Option Entry) (h : find d c = x) :
    getDir d c = dirView x := by
  subst h
  unfold getDir dirView
  rfl

/-! ### Traversal by components -/

/-- `add_handle` on a list of components. -/
def addComps (leaf : Entry) : Dir → List Comp → AddResult × Dir × List Int
  | d, [] => (.threw, d, [])
  | d, [c] => (.added, assign d c leaf, closedBy (find d c))
  | d, c :: c' :: cs =>
    match getDir d c with
    | .dir t =>
      let (r, t', cl) := addComps leaf t (c' :: cs)
      (r, assign d c (.tree t'), cl)
    | .monostate =>
      let (r, t', cl) := addComps leaf [] (c' :: cs)
      (r, assign d c (.tree t'), closedBy (find d c) ++ cl)
    | .handle _ => (.refused, d, [])

theorem cut_ne_nil (s : List Byte) : cut s ≠ [] := by
  cases s with
  | nil => simp [cut]
  | cons b bs =>
    simp only [cut]
    split
    · simp
    · split <;> simp

theorem cut_no_slash (s : List Byte) (h : slash ∉ s) : cut s = [s] := by
  induction s with
  | nil => rfl
  | cons b bs ih =>
    simp only [List.mem_cons, not_or] at h
    have hb : ¬ b = 47 := fun e => h.1 (Eq.symm e)
    simp [cut, ih h.2, hb]

theorem cut_slash (a b : List Byte) (h : slash ∉ a) : cut (a ++ slash :: b) = a :: cut b := by
  induction a with
  | nil => simp [cut]
  | cons x xs ih =>
    simp only [List.mem_cons, not_or] at h
    have hx : ¬ x = 47 := fun e => h.1 (Eq.symm e)
    simp [cut, ih h.2, hx]

theorem findIdx_split (s : List Byte) (k : Nat) (h : s.findIdx? (· == slash) = some k) :
    slash ∉ s.take k ∧ s = s.take k ++ slash :: s.drop (k + 1) ∧ k < s.length := by
  obtain ⟨hlt, h1, h2⟩ := List.findIdx?_eq_some_iff_getElem.1 h
  refine ⟨?_, ?_, hlt⟩
  · intro hm
    obtain ⟨i, hi, he⟩ := List.mem_iff_getElem.1 hm
    simp only [List.length_take] at hi
    have := h2 i (by omega)
    simp only [List.getElem_take] at he
    simp [he] at this
  · have h1' : s[k] = slash := by simpa using h1
    conv => lhs; rw [← List.take_append_drop k s]
    rw [List.drop_eq_getElem_cons hlt, h1']

theorem findIdx_none (s : List Byte) : s.findIdx? (· == slash) = none ↔ slash ∉ s := by
  rw [List.findIdx?_eq_none_iff]
  constructor
  · intro h hm
    have := h _ hm
    simp at this
  · intro h x hx
    simp
    rintro rfl
    exact h hx

theorem findLastOf_spec (s : List Byte) (h : slash ∈ s) :
    findLastOf s < s.length ∧ ∀ i, i ≤ findLastOf s →
      (i < findLastOf s ↔ slash ∈ s.drop (i + 1)) := by
  unfold findLastOf
  split
  · rename_i k hk
    obtain ⟨h1, h2, h3⟩ := findIdx_split _ k hk
    simp only [List.length_reverse] at h3
    refine ⟨by omega, fun i hi => ?_⟩
    have e : s = (s.reverse.drop (k + 1)).reverse ++ slash :: (s.reverse.take k).reverse := by
      have := congrArg List.reverse h2
      simpa using this
    have hl : (s.reverse.drop (k + 1)).reverse.length = s.length - 1 - k := by
      simp; omega
    constructor
    · intro hlt
      rw [e, List.drop_append_of_le_length (by omega)]
      simp
    · intro hm
      rcases Nat.lt_or_ge i (s.length - 1 - k) with h' | h'
      · exact h'
      · exfalso
        have hi' : i = s.length - 1 - k := by omega
        rw [e, hi', ← hl] at hm
        rw [List.drop_append, List.drop_of_length_le (Nat.le_succ _)] at hm
        simp at hm
        exact h1 hm
  · rename_i hn
    rw [findIdx_none] at hn
    simp at hn
    exact absurd h hn

/-- The string scan of `add_handle` visits exactly the components cut at the separators. -/
theorem addLoop_cut (path : List Byte) (leaf : Entry) (hs : slash ∈ path)
    (hlen : path.length ≤ npos) (n : Nat) : ∀ (d : Dir) (it : Nat), it ≤ findLastOf path →
      findLastOf path - it = n →
      addLoop path leaf d it = addComps leaf d (cut (path.drop (it + 1))) := by
  obtain ⟨hlast, hspec⟩ := findLastOf_spec path hs
  induction n using Nat.strongRecOn with
  | ind n ih =>
    intro d it hit hn
    rw [addLoop]
    have hmod : (it + 1) % (npos + 1) = it + 1 := Nat.mod_eq_of_lt (by omega)
    split
    · rename_i h
      have hmem := (hspec it hit).1 h.1
      have hne : (path.drop (it + 1)).findIdx? (· == slash) ≠ none := by
        rw [Ne, findIdx_none]; exact fun h' => h' hmem
      rcases hk : (path.drop (it + 1)).findIdx? (· == slash) with _ | k
      · exact absurd hk hne
      obtain ⟨k1, k2, k3⟩ := findIdx_split _ k hk
      have hnext : findFirstOf path (it + 1) = it + 1 + k := by
        simp [findFirstOf, hk]
      simp only [List.length_drop] at k3
      have hsub : substr path ((it + 1) % (npos + 1)) (findFirstOf path (it + 1) - it - 1) =
          some ((path.drop (it + 1)).take k) := by
        rw [hmod, hnext]
        unfold substr
        rw [if_pos (by omega)]
        congr 2; omega
      have hrest : (path.drop (it + 1)).drop (k + 1) = path.drop (it + 1 + k + 1) := by
        rw [List.drop_drop]; congr 1
      have hcut : cut (path.drop (it + 1)) =
          (path.drop (it + 1)).take k :: cut (path.drop (it + 1 + k + 1)) := by
        conv => lhs; rw [k2]
        rw [cut_slash _ _ k1, hrest]
      have hnle : it + 1 + k ≤ findLastOf path := by
        rcases Nat.lt_or_ge (findLastOf path) (it + 1 + k) with h' | h'
        · exfalso
          -- the separator at `it + 1 + k` is after the last one
          have hnot : slash ∉ path.drop (findLastOf path + 1) := fun hm =>
            absurd ((hspec _ (Nat.le_refl _)).2 hm) (Nat.lt_irrefl _)
          apply hnot
          have hget : path[it + 1 + k]? = some slash := by
            have hh : (path.drop (it + 1))[k]? = some slash := by
              rw [k2, List.getElem?_append_right (by simp; omega)]
              simp
              rw [Nat.min_eq_left (by omega)]; simp
            rw [List.getElem?_drop] at hh
            exact hh
          have : (path.drop (findLastOf path + 1))[it + 1 + k - (findLastOf path + 1)]? =
              some slash := by
            rw [List.getElem?_drop, ← hget]; congr 1; omega
          exact List.mem_of_getElem? this
        · exact h'
      have hrec : ∀ d', addLoop path leaf d' (findFirstOf path (it + 1)) =
          addComps leaf d' (cut (path.drop (it + 1 + k + 1))) := by
        intro d'
        rw [hnext]
        exact ih (findLastOf path - (it + 1 + k)) (by omega) d' (it + 1 + k) hnle rfl
      simp only [hsub, hrec]
      rw [hcut]
      rcases hc : cut (path.drop (it + 1 + k + 1)) with _ | ⟨x, xs⟩
      · exact absurd hc (cut_ne_nil _)
      · rfl
    · rename_i h
      have hge : it = findLastOf path := by omega
      have hnm : slash ∉ path.drop (it + 1) := fun hm => by
        have := (hspec it hit).2 hm; omega
      rw [cut_no_slash _ hnm]
      have hsub : substr path ((it + 1) % (npos + 1)) npos = some (path.drop (it + 1)) := by
        rw [hmod]
        unfold substr
        rw [if_pos (by omega), List.take_of_length_le (by simp; omega)]
      simp only [hsub]
      rfl

theorem npos_pos : 0 < npos := by unfold npos; decide

/-- `add_handle` on a text, in terms of the names the text stands for. -/
theorem addLoop_eq (path : List Byte) (leaf : Entry) (d : Dir) (hlen : path.length < npos) :
    addLoop path leaf d 0 =
      if path = [] then (.threw, d, []) else addComps leaf d (namesOf path) := by
  have hnp := npos_pos
  by_cases hs : slash ∈ path
  · have hne : path ≠ [] := by rintro rfl; simp at hs
    rw [if_neg hne, addLoop_cut path leaf hs (by omega) _ d 0 (by omega) rfl]
    unfold namesOf
    rw [if_pos hs]
    simp
  · have hlast : findLastOf path = npos := by
      unfold findLastOf
      have : path.reverse.findIdx? (· == slash) = none := by
        rw [findIdx_none]; simpa using hs
      rw [this]
    have hnext : findFirstOf path 1 = npos := by
      unfold findFirstOf
      have : (path.drop 1).findIdx? (· == slash) = none := by
        rw [findIdx_none]
        intro hm
        exact hs (List.mem_of_mem_drop hm)
      rw [this]
    split
    · rename_i he
      subst he
      rw [addLoop, hlast]
      have h1 : (1 : Nat) % (npos + 1) = 1 := Nat.mod_eq_of_lt (by omega)
      simp [hnp, substr, h1]
    · rename_i hne
      have hpos : 1 ≤ path.length := by
        cases path with
        | nil => exact absurd rfl hne
        | cons => simp
      have hsub1 : substr path ((0 + 1) % (npos + 1)) (npos - 0 - 1) = some path.tail := by
        rw [Nat.mod_eq_of_lt (by omega)]
        unfold substr
        rw [if_pos (by omega), List.take_of_length_le (by simp; omega)]
        simp
      have hsub2 : substr path ((npos + 1) % (npos + 1)) npos = some path := by
        rw [Nat.mod_self]
        unfold substr
        rw [if_pos (by omega), List.take_of_length_le (by simp; omega)]
        simp
      have hfin : ∀ d', addLoop path leaf d' npos =
          (.added, assign d' path leaf, closedBy (find d' path)) := by
        intro d'
        rw [addLoop, hlast]
        simp only [Nat.lt_irrefl, and_self, dif_neg, not_false_eq_true, hsub2]
      unfold namesOf
      rw [if_neg hs]
      rw [addLoop, hlast]
      simp only [hnp, and_self, dif_pos, hnext, Nat.zero_add] at hsub1 ⊢
      simp only [hsub1, hfin]
      rfl

/-! ### The abstraction -/

/-- The export found by following all names of a path: kind and handle. -/
def leafAt : Dir → List Comp → Option (Bool × Int)
  | _, [] => none
  | d, c :: cs =>
    match find d c with
    | none => none
    | some (.file h) => if cs = [] then some (false, h) else none
    | some (.dirh h) => if cs = [] then some (true, h) else none
    | some (.tree t) => leafAt t cs

/-- The kind and handle of a leaf entry. -/
def leafVal : Entry → Option (Bool × Int)
  | .file h => some (false, h)
  | .dirh h => some (true, h)
  | .tree _ => none

theorem leafAt_nil_dir (cs : List Comp) : leafAt [] cs = none := by
  cases cs <;> simp [leafAt, find]

theorem leafAt_assign_ne (d : Dir) (c c' : Comp) (e : Entry) (cs : List Comp) (h : c ≠ c') :
    leafAt (assign d c e) (c' :: cs) = leafAt d (c' :: cs) := by
  simp [leafAt, find_assign, h]

theorem leafAt_assign_leaf (d : Dir) (c : Comp) (e : Entry) (cs : List Comp) (v : Bool × Int)
    (hv : leafVal e = some v) :
    leafAt (assign d c e) (c :: cs) = if cs = [] then some v else none := by
  cases e <;> simp [leafVal] at hv <;> subst hv <;> simp [leafAt, find_assign]

theorem leafAt_assign_tree (d t : Dir) (c : Comp) (cs : List Comp) :
    leafAt (assign d c (.tree t)) (c :: cs) = leafAt t cs := by
  simp [leafAt, find_assign]

/-- Some exported directory lies strictly above the path. -/
def Blocked (d : Dir) (cs : List Comp) : Prop :=
  ∃ q r h, cs = q ++ r ∧ r ≠ [] ∧ leafAt d q = some (true, h)

theorem addComps_blocked (leaf : Entry) (cs : List Comp) :
    ∀ d, Blocked d cs → addComps leaf d cs = (.refused, d, []) := by
  induction cs with
  | nil =>
    rintro d ⟨q, r, h, e, hr, _⟩
    simp at e; exact absurd e.2 hr
  | cons c cs ih =>
    rintro d ⟨q, r, h, e, hr, hl⟩
    cases q with
    | nil => simp [leafAt] at hl
    | cons c0 q =>
      simp only [List.cons_append, List.cons.injEq] at e
      obtain ⟨rfl, e⟩ := e
      cases cs with
      | nil => simp at e; exact absurd e.2 hr
      | cons c' cs =>
        simp only [leafAt] at hl
        simp only [addComps, getDir]
        rcases hf : find d c with _ | x
        · simp [hf] at hl
        · cases x with
          | file h' =>
            simp only [hf] at hl
            split at hl <;> simp at hl
          | dirh h' => rfl
          | tree t =>
            simp only [hf] at hl
            have := ih t ⟨q, r, h, e, hr, hl⟩
            simp only [this]
            rw [assign_same _ _ _ hf]

theorem addComps_open (leaf : Entry) (v : Bool × Int) (hv : leafVal leaf = some v)
    (cs : List Comp) : ∀ d, cs ≠ [] → ¬ Blocked d cs →
      (addComps leaf d cs).1 = .added ∧
      ∀ q, leafAt (addComps leaf d cs).2.1 q =
        if cs <+: q ∨ q <+: cs then (if q = cs then some v else none) else leafAt d q := by
  induction cs with
  | nil => intro d h; exact absurd rfl h
  | cons c cs ih =>
    intro d _ hb
    cases cs with
    | nil =>
      refine ⟨rfl, fun q => ?_⟩
      simp only [addComps]
      cases q with
      | nil => simp [leafAt]
      | cons c1 q =>
        by_cases hc : c = c1
        · subst hc
          rw [leafAt_assign_leaf _ _ _ _ v hv]
          simp [List.cons_prefix_cons]
        · rw [leafAt_assign_ne _ _ _ _ _ hc]
          have h1 : ¬ ([c] <+: c1 :: q) := by simp [List.cons_prefix_cons, hc]
          have h2 : ¬ (c1 :: q <+: [c]) := by
            simp only [List.cons_prefix_cons, not_and]
            exact fun h => absurd h.symm hc
          simp [h1, h2]
    | cons c' cs =>
      -- what happens below the first component
      have key : ∀ t r t' cl, addComps leaf t (c' :: cs) = (r, t', cl) →
          (∀ q, leafAt d (c :: q) = leafAt t q ∨
            (find d c ≠ none ∧ ∃ h, find d c = some (.file h) ∧ t = [])) →
          ¬ Blocked t (c' :: cs) →
          r = .added ∧ ∀ q, leafAt (assign d c (.tree t')) q =
            if c :: c' :: cs <+: q ∨ q <+: c :: c' :: cs then
              (if q = c :: c' :: cs then some v else none) else leafAt d q := by
        intro t r t' cl he hlt hnb
        obtain ⟨i1, i2⟩ := ih t (by simp) hnb
        rw [he] at i1 i2
        simp only at i1 i2
        refine ⟨i1, fun q => ?_⟩
        cases q with
        | nil => simp [leafAt]
        | cons c1 q =>
          by_cases hc : c = c1
          · subst hc
            rw [leafAt_assign_tree, i2 q]
            simp only [List.cons_prefix_cons, true_and, List.cons.injEq]
            split
            · rfl
            · rename_i hnr
              rcases hlt q with h' | ⟨_, h, h', rfl⟩
              · exact h'.symm
              · rw [leafAt_nil_dir]
                simp only [leafAt, h']
                split
                · rename_i hq
                  subst hq
                  simp at hnr
                · rfl
          · rw [leafAt_assign_ne _ _ _ _ _ hc]
            have h1 : ¬ (c :: c' :: cs <+: c1 :: q) := by simp [List.cons_prefix_cons, hc]
            have h2 : ¬ (c1 :: q <+: c :: c' :: cs) := by
              simp only [List.cons_prefix_cons, not_and]
              exact fun h => absurd h.symm hc
            simp [h1, h2]
      simp only [addComps, getDir]
      have hnbe : ¬ Blocked [] (c' :: cs) := by
        rintro ⟨q, r, h, _, _, hl⟩
        simp [leafAt_nil_dir] at hl
      rcases hf : find d c with _ | x
      · simp only
        exact key [] _ _ _ rfl (fun q => Or.inl (by simp [leafAt, hf, leafAt_nil_dir])) hnbe
      · cases x with
        | file h =>
          simp only
          exact key [] _ _ _ rfl
            (fun q => Or.inr ⟨by simp [hf], h, hf, rfl⟩) hnbe
        | dirh h =>
          exfalso
          exact hb ⟨[c], c' :: cs, h, rfl, by simp, by simp [leafAt, hf]⟩
        | tree t =>
          simp only
          refine key t _ _ _ rfl (fun q => Or.inl (by simp [leafAt, hf])) ?_
          rintro ⟨q, r, h, e, hr, hl⟩
          exact hb ⟨c :: q, r, h, by simp [e], hr, by simpa [leafAt, hf] using hl⟩

theorem lookupLoop_iff (cs : List Comp) : ∀ d h rest,
    lookupLoop d cs = some (h, rest) ↔
      (leafAt d cs = some (false, h) ∧ rest = {}) ∨
      ∃ q r, cs = q ++ r ∧ r ≠ [] ∧ leafAt d q = some (true, h) ∧ rest = ⟨false, r⟩ := by
  induction cs with
  | nil =>
    intro d h rest
    simp [lookupLoop, leafAt]
  | cons c cs ih =>
    intro d h rest
    cases cs with
    | nil =>
      have hno : ¬ ∃ q r, [c] = q ++ r ∧ r ≠ [] ∧ leafAt d q = some (true, h) ∧
          rest = (⟨false, r⟩ : Path) := by
        rintro ⟨q, r, e, hr, hl, _⟩
        cases q with
        | nil => simp [leafAt] at hl
        | cons x q =>
          simp only [List.cons_append, List.cons.injEq] at e
          have := e.2
          simp at this
          exact hr this.2
      simp only [hno, or_false, lookupLoop, getFile, leafAt]
      rcases find d c with _ | x
      · simp
      · cases x <;> simp [eq_comm]
    | cons c' cs =>
      simp only [lookupLoop, getDir, leafAt]
      have exq : (∃ q r, c :: c' :: cs = q ++ r ∧ r ≠ [] ∧ leafAt d q = some (true, h) ∧
            rest = (⟨false, r⟩ : Path)) ↔
          ∃ q r, c' :: cs = q ++ r ∧ r ≠ [] ∧ leafAt d (c :: q) = some (true, h) ∧
            rest = (⟨false, r⟩ : Path) := by
        constructor
        · rintro ⟨q, r, e, hr, hl, hp⟩
          cases q with
          | nil => simp [leafAt] at hl
          | cons x q =>
            simp only [List.cons_append, List.cons.injEq] at e
            obtain ⟨rfl, e⟩ := e
            exact ⟨q, r, e, hr, hl, hp⟩
        · rintro ⟨q, r, e, hr, hl, hp⟩
          exact ⟨c :: q, r, by simp [e], hr, hl, hp⟩
      rw [exq]
      rcases hf : find d c with _ | x
      · simp [leafAt, hf]
      · cases x with
        | file h' =>
          simp only [leafAt, hf]
          simp
        | dirh h' =>
          simp only [leafAt, hf, ofComponents, Option.some.injEq, Prod.mk.injEq]
          constructor
          · rintro ⟨rfl, rfl⟩
            exact Or.inr ⟨[], c' :: cs, by simp, by simp, by simp, rfl⟩
          · rintro (⟨h1, _⟩ | ⟨q, r, e, hr, hl, hp⟩)
            · simp at h1
            · split at hl
              · rename_i hq
                subst hq
                simp only [Option.some.injEq, Prod.mk.injEq, true_and] at hl
                simp only [List.nil_append] at e
                subst e
                exact ⟨hl, hp.symm⟩
              · simp at hl
        | tree t =>
          simp only [leafAt, hf]
          exact ih t h rest

/-! ### Handles are neither lost nor duplicated -/

theorem handlesOf_assign (d : Dir) (c : Comp) (e : Entry) :
    (handlesOf (assign d c e) ++ closedBy (find d c)).Perm (handlesOf d ++ e.handles) := by
  induction d with
  | nil => simp [assign, handlesOf, closedBy, find]
  | cons x d ih =>
    obtain ⟨k, y⟩ := x
    simp only [assign, find]
    split
    · simp only [handlesOf, closedBy]
      rw [List.perm_iff_count]
      intro a
      simp only [List.count_append]
      omega
    · simp only [handlesOf]
      rw [List.perm_iff_count] at ih ⊢
      intro a
      have := ih a
      simp only [List.count_append] at this ⊢
      omega

theorem addComps_handles (leaf : Entry) (cs : List Comp) : ∀ d,
    (handlesOf (addComps leaf d cs).2.1 ++ (addComps leaf d cs).2.2).Perm
      (handlesOf d ++ (if (addComps leaf d cs).1 = .added then leaf.handles else [])) := by
  induction cs with
  | nil => intro d; simp [addComps]
  | cons c cs ih =>
    intro d
    cases cs with
    | nil => simpa [addComps] using handlesOf_assign d c leaf
    | cons c' cs =>
      rcases hf : find d c with _ | x
      · simp only [addComps, getDir_eq d c _ hf, dirView, hf]
        have h1 := ih []
        rcases hr : addComps leaf [] (c' :: cs) with ⟨r, t', cl⟩
        rw [hr] at h1
        have h2 := handlesOf_assign d c (.tree t')
        rw [hf] at h2
        rw [List.perm_iff_count] at h1 h2 ⊢
        intro a
        have h1 := h1 a
        have h2 := h2 a
        simp only [List.count_append, closedBy, handlesOf, Entry.handles, List.count_nil] at h1 h2 ⊢
        omega
      · cases x with
        | file h =>
          simp only [addComps, getDir_eq d c _ hf, dirView, hf]
          have h1 := ih []
          rcases hr : addComps leaf [] (c' :: cs) with ⟨r, t', cl⟩
          rw [hr] at h1
          have h2 := handlesOf_assign d c (.tree t')
          rw [hf] at h2
          rw [List.perm_iff_count] at h1 h2 ⊢
          intro a
          have h1 := h1 a
          have h2 := h2 a
          simp only [List.count_append, closedBy, handlesOf, Entry.handles, List.count_nil] at h1 h2 ⊢
          omega
        | dirh h => simp [addComps, getDir_eq d c _ hf, dirView]
        | tree t =>
          simp only [addComps, getDir_eq d c _ hf, dirView]
          have h1 := ih t
          rcases hr : addComps leaf t (c' :: cs) with ⟨r, t', cl⟩
          rw [hr] at h1
          have h2 := handlesOf_assign d c (.tree t')
          rw [hf] at h2
          rw [List.perm_iff_count] at h1 h2 ⊢
          intro a
          have h1 := h1 a
          have h2 := h2 a
          simp only [List.count_append, closedBy, Entry.handles] at h1 h2 ⊢
          omega

/-! ### The list of exports in force -/

/-- The tree and the list of exports in force agree. -/
def Agree (d : Dir) (live : List Item) : Prop :=
  ∀ p b h, leafAt d p = some (b, h) ↔ ⟨p, b, h⟩ ∈ live

theorem isPrefixOf_iff (p q : Names) : p.isPrefixOf q = true ↔ p <+: q :=
  List.isPrefixOf_iff_prefix

theorem related_not (p q : Names) : (!(related p q)) = true ↔ ¬ p <+: q ∧ ¬ q <+: p := by
  rw [← isPrefixOf_iff, ← isPrefixOf_iff]
  unfold related
  cases List.isPrefixOf p q <;> cases List.isPrefixOf q p <;> simp

theorem allowed_iff (d : Dir) (live : List Item) (ha : Agree d live) (p : Names) :
    allowed live p = true ↔ ¬ Blocked d p := by
  unfold allowed
  simp only [Bool.not_eq_true', Bool.eq_false_iff, ne_eq]
  apply not_congr
  rw [List.any_eq_true]
  constructor
  · rintro ⟨⟨q, b, h⟩, hm, hx⟩
    simp only [Bool.and_eq_true, beneath, Bool.not_eq_true', beq_eq_false_iff_ne, ne_eq] at hx
    obtain ⟨rfl, hx1, hx2⟩ := hx
    rw [isPrefixOf_iff] at hx1
    obtain ⟨r, rfl⟩ := hx1
    refine ⟨q, r, h, rfl, ?_, (ha _ _ _).2 hm⟩
    rintro rfl
    simp at hx2
  · rintro ⟨q, r, h, rfl, hr, hl⟩
    refine ⟨⟨q, true, h⟩, (ha _ _ _).1 hl, ?_⟩
    simp only [Bool.and_eq_true, beneath, Bool.not_eq_true', beq_eq_false_iff_ne, ne_eq, true_and]
    refine ⟨?_, ?_⟩
    · rw [isPrefixOf_iff]; exact List.prefix_append _ _
    · intro h; exact hr (by simpa using h)

theorem agree_add (d : Dir) (live : List Item) (ha : Agree d live) (p : Names) (hp : p ≠ [])
    (b : Bool) (h : Int) (leaf : Entry) (hv : leafVal leaf = some (b, h)) :
    Agree (addComps leaf d p).2.1 (export_ live ⟨p, b, h⟩) := by
  unfold export_
  simp only
  split
  · rename_i hal
    rw [allowed_iff d live ha] at hal
    obtain ⟨_, h2⟩ := addComps_open leaf (b, h) hv p d hp hal
    intro q b' h'
    rw [h2]
    have hrel : related p q = true ↔ p <+: q ∨ q <+: p := by
      simp [related]
    simp only [List.mem_cons, List.mem_filter, Item.mk.injEq, Bool.not_eq_true',
      Bool.eq_false_iff, ne_eq, hrel]
    split
    · rename_i hr
      split
      · rename_i hq
        subst hq
        simp [eq_comm]
      · rename_i hq
        simp [hq, hr]
    · rename_i hr
      have hq : q ≠ p := by rintro rfl; simp at hr
      simp [hq, hr]
      exact ha q b' h'
  · rename_i hal
    rw [Bool.not_eq_true, ← Bool.not_eq_true, allowed_iff d live ha] at hal
    rw [Classical.not_not] at hal
    rw [addComps_blocked leaf p d hal]
    exact ha

end Verif.FileTree
