import Verif.Make.Model
import Verif.Start.HostProps
import Verif.Defaults.Props

/-!
# Making a sandbox: how descriptors fill a table
-/

namespace Verif.Make

open Verif.Fd Verif.Start Verif.FileTree

/-! ### Specification -/

/-- A table after the objects `os` have been opened one after the other: the free numbers of `t` are used in ascending order
(POSIX; `src/libsandbox.cc:865-885`). -/
def fill (t : Table) (os : List Obj) : Table := fun i =>
  match t i with
  | some o => some o
  | none => os[free t i]?

/-- What exists of the default exports, in the order in which it is opened (`src/libsandbox.cc:705-718`). -/
def opened (disk : List Byte → Option Obj) : List Obj := Defaults.defaults.filterMap (fun d => disk d.2)

/-- What a new sandbox opens in the host, in order (`src/libsandbox.cc:866-885`). -/
def created (disk : List Byte → Option Obj) (h : Host) : List Obj :=
  [⟨h.next, true⟩] ++ (if h.pagemap = none then [⟨h.next + 1, true⟩] else []) ++ opened disk ++
    [⟨h.next + 2, true⟩, ⟨h.next + 3, true⟩] ++ (if h.service then [] else [⟨h.next + 4, true⟩]) ++
    [⟨h.next + 5, true⟩, ⟨h.next + 6, true⟩]

/-! ### Lemmas -/

theorem free_fill (t : Table) (os : List Obj) : ∀ k, free (fill t os) k = free t k - os.length
  | 0 => by simp [free]
  | k + 1 => by
    have ih := free_fill t os k
    unfold free
    rw [ih]
    rcases ht : t k with _ | o
    · simp only [fill, ht, if_true]
      by_cases hk : free t k < os.length
      · rw [List.getElem?_eq_getElem hk]
        simp
        omega
      · rw [List.getElem?_eq_none (by omega)]
        simp
        omega
    · simp [fill, ht]

theorem fill_nil (t : Table) : fill t [] = t := by
  funext i
  unfold fill
  split <;> simp_all

theorem fill_fill (t : Table) (as bs : List Obj) : fill (fill t as) bs = fill t (as ++ bs) := by
  funext i
  rcases ht : t i with _ | o
  · have hf := free_fill t as i
    simp only [fill, ht] at hf ⊢
    by_cases hk : free t i < as.length
    · rw [List.getElem?_append_left hk, List.getElem?_eq_getElem hk]
    · rw [List.getElem?_append_right (by omega)]
      rw [List.getElem?_eq_none (by omega)]
      simp only
      congr 1
  · simp [fill, ht]

theorem free_pos {t : Table} : ∀ {k}, 0 < free t k ↔ ∃ i, i < k ∧ t i = none
  | 0 => by simp [free]
  | k + 1 => by
    have ih := free_pos (t := t) (k := k)
    unfold free
    constructor
    · intro h
      by_cases hk : t k = none
      · exact ⟨k, by omega, hk⟩
      · rw [if_neg hk] at h
        obtain ⟨i, h1, h2⟩ := ih.1 (by omega)
        exact ⟨i, by omega, h2⟩
    · rintro ⟨i, h1, h2⟩
      by_cases hi : i = k
      · subst hi
        simp [h2]
      · have := ih.2 ⟨i, by omega, h2⟩
        omega

theorem fill_one {lim n : Nat} {t : Table} {o : Obj} (h : lowest lim t = some n) : t.put n (some o) = fill t [o] := by
  obtain ⟨-, h1, h2⟩ := lowest_some.1 h
  have h0 : free t n = 0 := by
    rcases Nat.eq_zero_or_pos (free t n) with h | h
    · exact h
    · obtain ⟨i, hi, hn⟩ := free_pos.1 h
      exact absurd hn (h2 i hi)
  funext i
  by_cases hi : i = n
  · subst hi
    simp [Table.put, fill, h1, h0]
  · rw [put_ne _ _ hi]
    rcases ht : t i with _ | x
    · have : 0 < free t i := free_pos.2 ⟨n, Classical.byContradiction fun hc => h2 i (by omega) ht, h1⟩
      simp only [fill, ht]
      rw [List.getElem?_eq_none (by simp; omega)]
    · simp [fill, ht]

/-- Opening something: it works as long as a number is free. -/
theorem create_fill (lim : Nat) (t : Table) (o : Obj) :
    if 0 < free t lim then ∃ n : Nat, create lim t o = ((n : Int), fill t [o]) ∧ t n = none ∧ fill t [o] n = some o ∧ n < lim
    else create lim t o = (-1, t) := by
  split
  · rename_i h
    obtain ⟨i, h1, h2⟩ := free_pos.1 h
    obtain ⟨n, hn, -⟩ := lowest_le h1 h2
    refine ⟨n, by simp [create, hn, fill_one hn], (lowest_some.1 hn).2.1, ?_, (lowest_some.1 hn).1⟩
    rw [← fill_one hn]
    simp
  · rename_i h
    have : lowest lim t = none := lowest_none.2 fun m hm he => h (free_pos.2 ⟨m, hm, he⟩)
    simp [create, this]

theorem create_ok {lim : Nat} {t : Table} {o : Obj} (h : 0 < free t lim) :
    ∃ n : Nat, create lim t o = ((n : Int), fill t [o]) ∧ t n = none ∧ fill t [o] n = some o ∧ n < lim := by
  have := create_fill lim t o
  rwa [if_pos h] at this

theorem create_full {lim : Nat} {t : Table} {o : Obj} (h : free t lim = 0) : create lim t o = (-1, t) := by
  have := create_fill lim t o
  rwa [if_neg (by omega)] at this

theorem object_ok {s : Sys} {lim : Nat} {t : Table} {o : Obj} (hs : s.memfd = true ∨ s.posix = true) (h : 0 < free t lim) :
    ∃ n : Nat, object s lim t o = ((n : Int), fill t [o]) ∧ t n = none ∧ fill t [o] n = some o ∧ n < lim := by
  obtain ⟨n, h1, h2⟩ := create_ok (o := o) h
  refine ⟨n, ?_, h2⟩
  unfold object
  rcases hm : s.memfd with _ | _
  · rcases hs with hs | hs
    · rw [hm] at hs
      cases hs
    · simp [hs, h1]
  · simp [h1]

theorem object_full {s : Sys} {lim : Nat} {t : Table} {o : Obj} (h : free t lim = 0) : object s lim t o = (-1, t) := by
  unfold object
  have := create_full (o := o) h
  rcases s.memfd <;> rcases s.posix <;> simp [this]

theorem object_cases (s : Sys) (lim : Nat) (t : Table) (o : Obj) :
    (object s lim t o = (-1, t)) ∨
    (0 < free t lim ∧ ∃ n : Nat, object s lim t o = ((n : Int), fill t [o]) ∧ t n = none ∧ fill t [o] n = some o ∧ n < lim) := by
  rcases Nat.eq_zero_or_pos (free t lim) with h | h
  · exact .inl (object_full h)
  · by_cases hs : s.memfd = true ∨ s.posix = true
    · exact .inr ⟨h, object_ok hs h⟩
    · left
      simp only [not_or, Bool.not_eq_true] at hs
      simp [object, hs.1, hs.2]

theorem free_fill_one (t : Table) (o : Obj) (k : Nat) : free (fill t [o]) k = free t k - 1 := free_fill t [o] k

theorem fill_keeps {t : Table} {os : List Obj} {i : Nat} {o : Obj} (h : t i = some o) : fill t os i = some o := by
  simp [fill, h]

theorem pair_ok {lim : Nat} {t : Table} {a b : Obj} (h : 2 ≤ free t lim) :
    ∃ m n : Nat, pair lim t a b = some ((m : Int), (n : Int), fill t [a, b]) ∧ t m = none ∧ t n = none ∧
      fill t [a, b] m = some a ∧ fill t [a, b] n = some b ∧ m < lim ∧ n < lim := by
  obtain ⟨m, h1, h2, h3, h4⟩ := create_ok (o := a) (by omega : 0 < free t lim)
  obtain ⟨n, g1, g2, g3, g4⟩ := create_ok (lim := lim) (t := fill t [a]) (o := b) (by rw [free_fill_one]; omega)
  rw [fill_fill] at g1 g3
  refine ⟨m, n, ?_, h2, ?_, ?_, g3, h4, g4⟩
  · simp only [pair, h1, g1]
    rw [if_neg (by omega)]
    rfl
  · rcases ht : t n with _ | x
    · rfl
    · rw [fill_keeps ht] at g2
      cases g2
  · have := fill_keeps (os := [b]) h3
    rwa [fill_fill] at this

theorem pair_full {lim : Nat} {t : Table} {a b : Obj} (h : free t lim < 2) : pair lim t a b = none := by
  unfold pair
  rcases Nat.eq_zero_or_pos (free t lim) with h0 | h0
  · rw [create_full h0]
    simp
  · obtain ⟨m, h1, -⟩ := create_ok (o := a) h0
    rw [h1]
    simp only
    rw [create_full (by rw [free_fill_one]; omega)]
    simp

/-- The table after the default exports have been opened: as many as there is room for. -/
theorem got_fill (disk : List Byte → Option Obj) (lim : Nat) : ∀ (ds : List (Bool × List Byte)) (t : Table),
    (Defaults.got disk lim ds t).2 = fill t ((ds.filterMap (fun d => disk d.2)).take (free t lim))
  | [], t => by simp [Defaults.got, fill_nil]
  | d :: ds, t => by
    rcases hd : disk d.2 with _ | o
    · have h : Defaults.got disk lim (d :: ds) t = Defaults.got disk lim ds t := by
        simp [Defaults.got, Defaults.openPath, hd]
      rw [h, got_fill disk lim ds t, List.filterMap_cons_none (f := fun d : Bool × List Byte => disk d.2) hd]
    · rw [List.filterMap_cons_some (f := fun d : Bool × List Byte => disk d.2) hd]
      rcases Nat.eq_zero_or_pos (free t lim) with h0 | h0
      · have h : Defaults.got disk lim (d :: ds) t = Defaults.got disk lim ds t := by
          simp [Defaults.got, Defaults.openPath, hd, create_full h0]
        rw [h, got_fill disk lim ds t, h0]
        simp
      · obtain ⟨n, h1, -⟩ := create_ok (o := o) h0
        have h : (Defaults.got disk lim (d :: ds) t).2 = (Defaults.got disk lim ds (fill t [o])).2 := by
          simp only [Defaults.got, Defaults.openPath, hd, h1]
          split <;> rfl
        rw [h, got_fill disk lim ds, fill_fill, free_fill_one]
        congr 1
        obtain ⟨k, hk⟩ : ∃ k, free t lim = k + 1 := ⟨free t lim - 1, by omega⟩
        rw [hk]
        rfl

theorem construct_fill (disk : List Byte → Option Obj) (lim : Nat) (t : Table) :
    (Defaults.construct disk lim t).2 = fill t ((opened disk).take (free t lim)) := by
  rw [Defaults.construct_got]
  exact got_fill disk lim _ t

/-- With room for all of them and descriptor 0 in use, what exists is exported. -/
theorem got_all_exist {disk : List Byte → Option Obj} {lim : Nat} : ∀ (ds : List (Bool × List Byte)) (t : Table), t 0 ≠ none →
    (ds.filterMap (fun d => disk d.2)).length ≤ free t lim →
    (Defaults.got disk lim ds t).1.map (fun e => (e.isDir, e.path)) = ds.filter (fun d => (disk d.2).isSome)
  | [], t, _, _ => by simp [Defaults.got]
  | d :: ds, t, h0, hl => by
    rcases hd : disk d.2 with _ | o
    · rw [List.filterMap_cons_none (f := fun d : Bool × List Byte => disk d.2) hd] at hl
      have h : Defaults.got disk lim (d :: ds) t = Defaults.got disk lim ds t := by
        simp [Defaults.got, Defaults.openPath, hd]
      rw [h, got_all_exist ds t h0 hl, List.filter_cons_of_neg (by simp [hd])]
    · rw [List.filterMap_cons_some (f := fun d : Bool × List Byte => disk d.2) hd] at hl
      simp only [List.length_cons] at hl
      obtain ⟨n, h1, h2, -⟩ := create_ok (o := o) (by omega : 0 < free t lim)
      have hn : n ≠ 0 := fun h => h0 (h ▸ h2)
      have h : (Defaults.got disk lim (d :: ds) t).1 = ⟨d.1, d.2, n⟩ :: (Defaults.got disk lim ds (fill t [o])).1 := by
        simp only [Defaults.got, Defaults.openPath, hd, h1]
        rw [if_pos (by omega)]
      have h0' : fill t [o] 0 ≠ none := by
        rcases ht : t 0 with _ | x
        · exact absurd ht h0
        · rw [fill_keeps ht]
          simp
      rw [h, List.map_cons, got_all_exist ds _ h0' (by rw [free_fill_one]; omega), List.filter_cons_of_pos (by simp [hd])]

end Verif.Make
