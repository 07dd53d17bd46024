import Verif.Cycle.Model
import Verif.Make.Props

/-!
# Making and destroying sandboxes: lemmas
-/

namespace Verif.Cycle

open Verif.Fd Verif.Start Verif.FileTree Verif.Make Verif.FileTree.Spec

/-! ### The exported files -/

/-- An export of a path, if there is a handle (`src/libsandbox.cc:705-718`). -/
def exportOf (d : Bool × List Byte) : Option Int → List Export
  | none => []
  | some a => [⟨d.1, d.2, a⟩]

/-- The tree of the default exports owns exactly the handles that it was given. -/
theorem handles_tree (a b c d : Option Int) :
    handlesOf (runHistory (exportOf (true, Defaults.bytes "/lib") a ++ (exportOf (true, Defaults.bytes "/usr/lib") b ++
      (exportOf (true, Defaults.bytes "/usr/local/lib") c ++ exportOf (false, Defaults.bytes "/etc/ld.so.cache") d)))) =
    a.toList ++ (b.toList ++ (c.toList ++ d.toList)) := by
  have run : ∀ (isDir : Bool) (path : List Byte) (t : Dir) (x : Int), path.length < 2 ^ 64 - 1 → path ≠ [] →
      Export.run t ⟨isDir, path, x⟩ = addComps (if isDir then .dirh x else .file x) t (namesOf path) := by
    intro isDir path t x h1 h2
    rw [Export.run_eq _ _ h1, if_neg h2]
  have n1 : namesOf (Defaults.bytes "/lib") = [Defaults.bytes "lib"] := by decide +kernel
  have n2 : namesOf (Defaults.bytes "/usr/lib") = [Defaults.bytes "usr", Defaults.bytes "lib"] := by decide +kernel
  have n3 : namesOf (Defaults.bytes "/usr/local/lib") = [Defaults.bytes "usr", Defaults.bytes "local", Defaults.bytes "lib"] := by
    decide +kernel
  have n4 : namesOf (Defaults.bytes "/etc/ld.so.cache") = [Defaults.bytes "etc", Defaults.bytes "ld.so.cache"] := by decide +kernel
  have r1 := fun t x => (run true (Defaults.bytes "/lib") t x (by decide +kernel) (by decide +kernel)).trans (by rw [n1])
  have r2 := fun t x => (run true (Defaults.bytes "/usr/lib") t x (by decide +kernel) (by decide +kernel)).trans (by rw [n2])
  have r3 := fun t x => (run true (Defaults.bytes "/usr/local/lib") t x (by decide +kernel) (by decide +kernel)).trans (by rw [n3])
  have r4 := fun t x => (run false (Defaults.bytes "/etc/ld.so.cache") t x (by decide +kernel) (by decide +kernel)).trans (by rw [n4])
  have d1 : Defaults.bytes "lib" ≠ Defaults.bytes "usr" := by decide +kernel
  have d2 : Defaults.bytes "lib" ≠ Defaults.bytes "etc" := by decide +kernel
  have d3 : Defaults.bytes "lib" ≠ Defaults.bytes "local" := by decide +kernel
  have d4 : Defaults.bytes "usr" ≠ Defaults.bytes "etc" := by decide +kernel
  clear n1 n2 n3 n4 run
  generalize Defaults.bytes "lib" = lib at *
  generalize Defaults.bytes "usr" = usr at *
  generalize Defaults.bytes "local" = loc at *
  generalize Defaults.bytes "etc" = etc at *
  rcases a <;> rcases b <;> rcases c <;> rcases d <;>
    simp [exportOf, runHistory, r1, r2, r3, r4, addComps, getDir, find, assign, handlesOf, Entry.handles, d1, d2, d3, d4]

/-- The default exports that exist, with the numbers that they have got. -/
theorem got_slots {disk : List Byte → Option Obj} {lim : Nat} : ∀ (ds : List (Bool × List Byte)) (t : Table), t 0 ≠ none →
    (ds.filterMap (fun d => disk d.2)).length ≤ free t lim →
    ∃ xs : List (Option Nat), xs.length = ds.length ∧
      (Defaults.got disk lim ds t).1 = (ds.zip xs).flatMap (fun p => exportOf p.1 (p.2.map Int.ofNat)) ∧
      (xs.filterMap id).Nodup ∧ (xs.filterMap id).length = (ds.filterMap (fun d => disk d.2)).length ∧
      ∀ n ∈ xs.filterMap id, t n = none ∧ n < lim ∧ ∃ p o, disk p = some o ∧ (Defaults.got disk lim ds t).2 n = some o
  | [], t, _, _ => ⟨[], by simp [Defaults.got]⟩
  | d :: ds, t, h0, hl => by
    rcases hd : disk d.2 with _ | o
    · rw [List.filterMap_cons_none (f := fun d : Bool × List Byte => disk d.2) hd] at hl ⊢
      have h : Defaults.got disk lim (d :: ds) t = Defaults.got disk lim ds t := by
        simp [Defaults.got, Defaults.openPath, hd]
      obtain ⟨xs, x1, x2, x3, x4, x5⟩ := got_slots ds t h0 hl
      rw [h]
      exact ⟨none :: xs, by simp [x1], by simp [x2, exportOf], by simpa using x3, by simpa using x4, by simpa using x5⟩
    · rw [List.filterMap_cons_some (f := fun d : Bool × List Byte => disk d.2) hd] at hl ⊢
      simp only [List.length_cons] at hl
      obtain ⟨n, h1, h2, h3, h4⟩ := create_ok (o := o) (by omega : 0 < free t lim)
      have hn : n ≠ 0 := fun h => h0 (h ▸ h2)
      have h : Defaults.got disk lim (d :: ds) t = (⟨d.1, d.2, n⟩ :: (Defaults.got disk lim ds (fill t [o])).1,
          (Defaults.got disk lim ds (fill t [o])).2) := by
        simp only [Defaults.got, Defaults.openPath, hd, h1]
        rw [if_pos (by omega)]
      have h0' : fill t [o] 0 ≠ none := by
        rcases ht : t 0 with _ | x
        · exact absurd ht h0
        · rw [fill_keeps ht]
          simp
      obtain ⟨xs, x1, x2, x3, x4, x5⟩ := got_slots (disk := disk) (lim := lim) ds (fill t [o]) h0' (by rw [free_fill_one]; omega)
      have hg := got_fill disk lim ds (fill t [o])
      rw [h]
      refine ⟨some n :: xs, by simp [x1], by simp [x2, exportOf], ?_, by simpa using x4, ?_⟩
      · simp only [List.filterMap_cons, id, List.nodup_cons]
        refine ⟨fun hc => ?_, x3⟩
        have := (x5 n hc).1
        rw [h3] at this
        cases this
      · simp only [List.filterMap_cons, id, List.mem_cons]
        rintro k (rfl | hk)
        · exact ⟨h2, h4, d.2, o, hd, by rw [hg]; exact fill_keeps h3⟩
        · obtain ⟨y1, y2, y3⟩ := x5 k hk
          exact ⟨none_of_fill y1, y2, y3⟩

/-- The handles of the tree of a new sandbox. -/
theorem construct_slots {disk : List Byte → Option Obj} {lim : Nat} {t : Table} (h0 : t 0 ≠ none) (hl : (opened disk).length ≤ free t lim) :
    ∃ ns : List Nat, handlesOf (Defaults.construct disk lim t).1 = ns.map Int.ofNat ∧ ns.Nodup ∧ ns.length = (opened disk).length ∧
      ∀ n ∈ ns, t n = none ∧ n < lim ∧ ∃ p o, disk p = some o ∧ (Defaults.construct disk lim t).2 n = some o := by
  obtain ⟨xs, x1, x2, x3, x4, x5⟩ := got_slots (disk := disk) (lim := lim) Defaults.defaults t h0 hl
  refine ⟨xs.filterMap id, ?_, x3, x4, ?_⟩
  · rw [Defaults.construct_got]
    simp only [x2]
    match xs, x1 with
    | [a, b, c, d], _ =>
      have := handles_tree (a.map Int.ofNat) (b.map Int.ofNat) (c.map Int.ofNat) (d.map Int.ofNat)
      simp only [Defaults.defaults, List.zip_cons_cons, List.zip_nil_right, List.flatMap_cons, List.flatMap_nil, List.append_nil]
      rw [this]
      rcases a <;> rcases b <;> rcases c <;> rcases d <;> rfl
  · rw [Defaults.construct_got]
    exact x5

/-! ### Counting -/

theorem free_mono {t t' : Table} (hk : ∀ i o, t i = some o → t' i = some o) : ∀ k, free t' k ≤ free t k
  | 0 => by simp [free]
  | k + 1 => by
    have ih := free_mono hk k
    unfold free
    rcases ht : t k with _ | o
    · simp only [if_true]
      split <;> omega
    · simp [hk k o ht]
      exact ih

theorem free_lt {t t' : Table} (hk : ∀ i o, t i = some o → t' i = some o) {n : Nat} (h1 : t n = none) (h2 : t' n ≠ none) :
    ∀ k, n < k → free t' k < free t k
  | 0, h => by omega
  | k + 1, h => by
    unfold free
    by_cases hn : n = k
    · subst hn
      have := free_mono hk n
      rw [if_pos h1, if_neg h2]
      omega
    · have ih := free_lt hk h1 h2 k (by omega)
      rcases ht : t k with _ | o
      · simp only [if_true]
        split <;> omega
      · simp [hk k o ht]
        exact ih

theorem free_le_of_le (t : Table) {a b : Nat} (h : a ≤ b) : free t a ≤ free t b := by
  induction b with
  | zero => simp at h; subst h; exact Nat.le_refl _
  | succ b ih =>
    rcases Nat.lt_or_ge a (b + 1) with hl | hl
    · have := ih (by omega)
      show _ ≤ free t b + _
      omega
    · have : a = b + 1 := by omega
      subst this
      exact Nat.le_refl _

/-- Closing an open descriptor frees one. -/
theorem free_put_none {t : Table} {n : Nat} (ho : t n ≠ none) : ∀ k, free (t.put n none) k = free t k + if n < k then 1 else 0
  | 0 => by simp [free]
  | k + 1 => by
    have ih := free_put_none ho k
    unfold free
    rw [ih]
    by_cases hn : n = k
    · subst hn
      simp [ho]
    · rw [put_ne _ _ (Ne.symm hn)]
      by_cases hk : n < k
      · have hk' : n < k + 1 := by omega
        simp only [hk, hk', if_true]
        omega
      · have hk' : ¬ n < k + 1 := by omega
        simp only [hk, hk', if_false]
        omega

theorem close_nat (t : Table) (n : Nat) : close t (n : Int) = t.put n none := by
  simp [close]

theorem close_neg (t : Table) : close t (-1) = t := by
  simp [close]

theorem free_close {t : Table} {n lim : Nat} (ho : t n ≠ none) (hn : n < lim) : free (close t (n : Int)) lim = free t lim + 1 := by
  rw [close_nat, free_put_none ho, if_pos hn]

theorem closes_other {i : Nat} : ∀ (ns : List Nat) (t : Table), i ∉ ns → (ns.map Int.ofNat).foldl close t i = t i
  | [], _, _ => rfl
  | n :: ns, t, h => by
    simp only [List.mem_cons, not_or] at h
    simp only [List.map_cons, List.foldl_cons]
    rw [closes_other ns _ h.2]
    exact close_other (by simp; omega)

theorem closes_in {i : Nat} : ∀ (ns : List Nat) (t : Table), i ∈ ns → (ns.map Int.ofNat).foldl close t i = none
  | n :: ns, t, h => by
    simp only [List.map_cons, List.foldl_cons]
    by_cases hi : i ∈ ns
    · exact closes_in ns _ hi
    · have : i = n := by simpa [hi] using h
      subst this
      rw [closes_other ns _ hi]
      show close t (i : Int) i = none
      rw [close_nat]
      exact put_same _ _ _

/-- Closing different open descriptors frees as many. -/
theorem free_closes {lim : Nat} : ∀ (ns : List Nat) (t : Table), ns.Nodup → (∀ n ∈ ns, n < lim ∧ t n ≠ none) →
    free ((ns.map Int.ofNat).foldl close t) lim = free t lim + ns.length
  | [], _, _, _ => rfl
  | n :: ns, t, hd, ho => by
    simp only [List.nodup_cons] at hd
    simp only [List.map_cons, List.foldl_cons]
    have hn := ho n (by simp)
    rw [free_closes ns _ hd.2]
    · show free (close t (n : Int)) lim + ns.length = _
      rw [free_close hn.2 hn.1]
      simp
      omega
    · intro k hk
      have := ho k (by simp [hk])
      refine ⟨this.1, ?_⟩
      rw [show close t (Int.ofNat n) = close t (n : Int) from rfl, close_other ?_]
      · exact this.2
      · intro h
        have hkn : n = k := by omega
        exact hd.1 (hkn ▸ hk)

/-- A number that a fill has taken is below the limit. -/
theorem fill_below {t : Table} {os : List Obj} {lim n : Nat} (hr : os.length ≤ free t lim) (h1 : t n = none) (h2 : fill t os n ≠ none) :
    n < lim := by
  refine Classical.byContradiction fun hc => h2 ?_
  have := free_le_of_le t (by omega : lim ≤ n)
  simp only [fill, h1]
  exact List.getElem?_eq_none (by omega)

/-! ### The memory service -/

theorem openId_iff {lim : Nat} {t : Table} {id : Nat} : openId lim t id = true ↔ ∃ i o, i < lim ∧ t i = some o ∧ o.id = id := by
  unfold openId
  rw [List.any_eq_true]
  constructor
  · rintro ⟨i, hi, h⟩
    rcases ht : t i with _ | o
    · simp [ht] at h
    · simp [ht] at h
      exact ⟨i, o, by simpa using hi, ht, h⟩
  · rintro ⟨i, o, hi, ht, h⟩
    exact ⟨i, by simpa using hi, by simp [ht, h]⟩

/-- Nothing is dropped whose peer is open. -/
theorem hangup_stuck {lim : Nat} {t : Table} : ∀ (l : List (Int × Nat)), (∀ x ∈ l, openId lim t x.2 = true) → hangup lim t l = (t, l)
  | [], _ => rfl
  | (x, p) :: l, h => by
    simp only [hangup]
    rw [if_pos (h (x, p) (by simp)), hangup_stuck l (fun y hy => h y (by simp [hy]))]

end Verif.Cycle
