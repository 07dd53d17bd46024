import Verif.Basic

/-!
# Descriptor tables (model of the system calls the descriptor code uses)

These definitions stand for the kernel's part of `dup(2)`, `dup2(2)`, `open(2)`, `close(2)` and
`closefrom(3)` at their uses in `src/libsandbox.cc:799-832`,
`include/process_sandbox/platform/sandbox_seccomp-bpf.h:52-54` and
`include/process_sandbox/platform/platform.h:65-72`.  They are part of the trusted base: the
code under study only calls them.
-/

namespace Verif.Fd

/-- An open file description: which object it refers to and whether it may be used for writing.
Used for the objects named in `include/process_sandbox/sandbox_fd_numbers.h:12-55`. -/
structure Obj where
  id : Nat
  wr : Bool
  deriving Repr, DecidableEq

/-- A descriptor table: what each number refers to.  A simplification: the close-on-exec flag is
left out (every number the child keeps is produced by `dup2`, which clears it;
`src/libsandbox.cc:825-831`). -/
abbrev Table := Nat → Option Obj

/-- Point update of a table; used for every call below (`src/libsandbox.cc:804`, `:825-831`). -/
def Table.put (t : Table) (n : Nat) (o : Option Obj) : Table := fun i => if i = n then o else t i

/-- The number a new descriptor gets: the lowest free one below the limit on open files
(POSIX; relied on by `include/process_sandbox/sandbox_fd_numbers.h:58-63`). -/
def lowest (lim : Nat) (t : Table) : Option Nat := (List.range lim).find? fun i => (t i).isNone

/-- The description a number refers to; numbers are C `int`s (`src/libsandbox.cc:799-807`). -/
def Table.at (t : Table) (x : Int) : Option Obj := if 0 ≤ x then t x.toNat else none

/-- A call that creates a descriptor for `o`: the number, or −1 when the limit is reached. Used for
`open` (`src/libsandbox.cc:818`) and for each descriptor of the other creating calls. -/
def create (lim : Nat) (t : Table) (o : Obj) : Int × Table :=
  match lowest lim t with
  | some n => (n, t.put n (some o))
  | none => (-1, t)

/-- `dup(2)`, `src/libsandbox.cc:804`: −1 for a closed or negative number or at the limit. -/
def dup (lim : Nat) (t : Table) (x : Int) : Int × Table :=
  match t.at x with
  | some o => create lim t o
  | none => (-1, t)

/-- `dup2(2)`, `src/libsandbox.cc:825-831`: the target is a small constant, always below the limit
(`lim ≥ 9` is assumed where it matters); nothing happens for a closed source. -/
def dup2 (t : Table) (x : Int) (y : Nat) : Table :=
  match t.at x with
  | some o => t.put y (some o)
  | none => t

/-- `close(2)`, `include/process_sandbox/platform/platform.h:69`. -/
def close (t : Table) (x : Int) : Table := if 0 ≤ x then t.put x.toNat none else t

/-- `closefrom(3)`, `src/libsandbox.cc:832`(a library call): everything from `n` up is closed. -/
def closefrom (t : Table) (n : Nat) : Table := fun i => if i < n then t i else none

theorem lowest_some {lim t n} :
    lowest lim t = some n ↔ n < lim ∧ t n = none ∧ ∀ m, m < n → t m ≠ none := by
  unfold lowest
  rw [List.find?_range_eq_some]
  constructor
  · rintro ⟨h1, h2, h3⟩
    refine ⟨by simpa using h2, by simpa using h1, fun m hm he => ?_⟩
    have := h3 m hm
    simp [he] at this
  · rintro ⟨h1, h2, h3⟩
    refine ⟨by simp [h2], by simpa using h1, fun m hm => ?_⟩
    have := h3 m hm
    cases hh : t m <;> simp_all

theorem lowest_none {lim t} : lowest lim t = none ↔ ∀ m, m < lim → t m ≠ none := by
  unfold lowest
  simp only [List.find?_range_eq_none]
  constructor
  · intro h m hm he
    have := h m hm
    simp [he] at this
  · intro h m hm
    have := h m hm
    cases hh : t m <;> simp_all

/-- There is room as soon as some number below the limit is free. -/
theorem lowest_le {lim t m} (hm : m < lim) (hf : t m = none) :
    ∃ n, lowest lim t = some n ∧ n ≤ m := by
  cases h : lowest lim t with
  | none => exact absurd hf (lowest_none.1 h m hm)
  | some n =>
    refine ⟨n, rfl, ?_⟩
    have := (lowest_some.1 h).2.2 m
    by_cases hh : m < n
    · exact absurd hf (this hh)
    · omega

@[simp] theorem put_same (t : Table) (n o) : t.put n o n = o := by simp [Table.put]
theorem put_ne (t : Table) {n i : Nat} (o) (h : i ≠ n) : t.put n o i = t i := by simp [Table.put, h]

end Verif.Fd
