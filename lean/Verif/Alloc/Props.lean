import Verif.Alloc.Model
import Verif.Bounds.Props

/-!
# Making objects in a sandbox (property C73)
-/

namespace Verif.Alloc

open Verif.Bounds

/-! ### Specification -/

/-- `m'` is `m` except that the `n` bytes at `a` are `v`. -/
def Becomes (m m' : Mem) (a n : Nat) (v : Nat → Byte) : Prop :=
  ∀ x : Word, m' x = if a ≤ x.toNat ∧ x.toNat < a + n then v (x.toNat - a) else m x

/-- What is wanted of the allocator: a block of the asked size inside the sandbox. -/
def Gives (hdr : Word) (r : Region) (alloc : Word → Option Word) : Prop :=
  ∀ sz p, alloc sz = some p → contains hdr r p sz = true

/-! ### Lemmas -/

theorem fill_becomes (v : Nat → Byte) (m : Mem) (a : Word) (n : Nat) (h : a.toNat + n ≤ 2 ^ 64) :
    Becomes m (fill v m a n) a.toNat n v := by
  induction n with
  | zero => intro x; simp [fill]; intro h1 h2; omega
  | succ n ih =>
    intro x
    have hn : (a + BitVec.ofNat 64 n).toNat = a.toNat + n := by
      rw [BitVec.toNat_add, BitVec.toNat_ofNat, Nat.mod_eq_of_lt (a := n) (by omega), Nat.mod_eq_of_lt (by omega)]
    simp only [fill, write]
    by_cases hx : x = a + BitVec.ofNat 64 n
    · subst hx
      simp only [if_true, hn]
      rw [if_pos (by omega)]
      congr 1
      omega
    · rw [if_neg hx, ih (by omega) x]
      have : x.toNat ≠ a.toNat + n := fun e => hx (BitVec.eq_of_toNat_eq (by omega))
      by_cases h1 : a.toNat ≤ x.toNat ∧ x.toNat < a.toNat + n
      · rw [if_pos h1, if_pos (by omega)]
      · rw [if_neg h1, if_neg (by omega)]

theorem zeroLoop_becomes (size array : Word) : ∀ (n : Nat) (i : Word) (m : Mem),
    array.toNat + (i.toNat + n) * size.toNat ≤ 2 ^ 64 → i.toNat + n < 2 ^ 64 → 0 < size.toNat →
    Becomes m (zeroLoop size array n i m) (array.toNat + i.toNat * size.toNat) (n * size.toNat) (fun _ => 0)
  | 0, i, m, _, _, _ => by intro x; simp [zeroLoop]; intro h1 h2; omega
  | n + 1, i, m, h, hi, hs => by
    intro x
    have e1 : (i.toNat + (n + 1)) * size.toNat = i.toNat * size.toNat + n * size.toNat + size.toNat := by grind
    have hmul : (i * size).toNat = i.toNat * size.toNat := by
      rw [BitVec.toNat_mul, Nat.mod_eq_of_lt]
      have := array.isLt
      by_cases ha : 0 < array.toNat
      · omega
      · omega
    have hi1 : (i + 1).toNat = i.toNat + 1 := by
      rw [BitVec.toNat_add]; simp; omega
    have e2 : (i.toNat + 1) * size.toNat = i.toNat * size.toNat + size.toNat := by grind
    have ih := zeroLoop_becomes size array n (i + 1) (fill (fun _ => 0) m (array + i * size) size.toNat)
      (by rw [hi1]; rwa [show i.toNat + 1 + n = i.toNat + (n + 1) by omega]) (by omega) hs x
    have hadd : (array + i * size).toNat = array.toNat + i.toNat * size.toNat := by
      rw [BitVec.toNat_add, hmul, Nat.mod_eq_of_lt (by omega)]
    have hf := fill_becomes (fun _ => 0) m (array + i * size) size.toNat (by omega) x
    simp only [zeroLoop]
    rw [ih, hi1, e2, hf, hadd]
    have e3 : (n + 1) * size.toNat = n * size.toNat + size.toNat := by grind
    rw [e3]
    by_cases h1 : array.toNat + (i.toNat * size.toNat + size.toNat) ≤ x.toNat ∧
        x.toNat < array.toNat + (i.toNat * size.toNat + size.toNat) + n * size.toNat
    · rw [if_pos h1, if_pos (by omega)]
    · rw [if_neg h1]
      by_cases h2 : array.toNat + i.toNat * size.toNat ≤ x.toNat ∧
          x.toNat < array.toNat + i.toNat * size.toNat + size.toNat
      · rw [if_pos h2, if_pos (by omega)]
      · rw [if_neg h2, if_neg (by omega)]

/-! ## C73 -/

/-- **C73, arrays.**  When an array of `count` objects of `size` bytes has been made, all its bytes are zero, no other
byte has changed, and all of it is inside the sandbox; the host asked for room for all the objects. -/
theorem array_zeroed {hdr : Word} {r : Region} {alloc : Word → Option Word} {size count p : Word} {m m' : Mem}
    (hr : r.WF hdr) (ha : Gives hdr r alloc) (hs : size ≠ 0) (h : allocArray alloc size count m = (some p, m')) :
    Becomes m m' p.toNat (count.toNat * size.toNat) (fun _ => 0) ∧
      r.base.toNat + hdr.toNat ≤ p.toNat ∧ p.toNat + count.toNat * size.toNat ≤ r.top.toNat := by
  unfold allocArray at h
  split at h
  · cases h
  · rename_i array hal
    simp only [Prod.mk.injEq, Option.some.injEq] at h
    obtain ⟨rfl, rfl⟩ := h
    have hpos : 0 < size.toNat := by
      rcases Nat.eq_zero_or_pos size.toNat with h0 | h0
      · exact absurd (BitVec.eq_of_toNat_eq (by simpa using h0)) hs
      · exact h0
    obtain ⟨e1, e2⟩ := allocInSandbox_exact alloc size count
    by_cases hov : 2 ^ 64 ≤ size.toNat * count.toNat
    · rw [e1 hov] at hal; cases hal
    · obtain ⟨sz, hsz, he⟩ := e2 (by omega)
      rw [he] at hal
      have hc := (contains_iff hdr r hr array sz).1 (ha sz array hal)
      have hcomm : count.toNat * size.toNat = size.toNat * count.toNat := Nat.mul_comm _ _
      have htop := r.top.isLt
      refine ⟨?_, hc.1, by omega⟩
      have := zeroLoop_becomes size array count.toNat 0 m (by simp; omega) (by simp; exact count.isLt) hpos
      simpa using this

/-- **C73, nothing otherwise.**  When the size does not fit 64 bits or the allocator has nothing, the memory is as it
was. -/
theorem array_none {alloc : Word → Option Word} {size count : Word} {m m' : Mem} {o : Option Word}
    (h : allocArray alloc size count m = (o, m')) :
    (2 ^ 64 ≤ size.toNat * count.toNat → o = none) ∧ (o = none → m' = m) := by
  unfold allocArray at h
  constructor
  · intro hov
    rw [(allocInSandbox_exact alloc size count).1 hov] at h
    cases h; rfl
  · rintro rfl
    split at h
    · cases h; rfl
    · cases h

/-- **C73, null exactly when it has to be.**  The array is null if the size of all objects does not fit 64 bits; if it does, the host
asks the allocator once for that size and gets what it gives, null included. -/
theorem array_outcome (alloc : Word → Option Word) (size count : Word) (m : Mem) :
    (allocArray alloc size count m).1 =
      if 2 ^ 64 ≤ size.toNat * count.toNat then none else alloc (BitVec.ofNat 64 (size.toNat * count.toNat)) := by
  have hm : (allocArray alloc size count m).1 = (allocInSandbox alloc size count).1 := by
    unfold allocArray; split <;> rename_i h <;> rw [h]
  rw [hm]
  split
  · rename_i h
    rw [(allocInSandbox_exact alloc size count).1 h]
  · rename_i h
    obtain ⟨sz, h1, h2⟩ := (allocInSandbox_exact alloc size count).2 (by omega)
    rw [h2, ← h1, BitVec.ofNat_toNat, BitVec.setWidth_eq]

/-- **C73, one object is null exactly when the allocator has nothing.** -/
theorem object_outcome (alloc : Word → Option Word) (size : Word) (v : Nat → Byte) (m : Mem) :
    (allocObject alloc size v m).1 = alloc size := by
  have hm : (allocObject alloc size v m).1 = (allocInSandbox alloc size 1).1 := by
    unfold allocObject; split <;> rename_i h <;> rw [h]
  rw [hm]
  obtain ⟨sz, h1, h2⟩ := (allocInSandbox_exact alloc size 1).2 (by have := size.isLt; simpa using this)
  have : sz = size := BitVec.eq_of_toNat_eq (by simpa using h1)
  rw [h2, this]

/-- **C73, single objects.**  An object has the bytes its constructor gave it, and no other byte has changed. -/
theorem object_written {hdr : Word} {r : Region} {alloc : Word → Option Word} {size : Word} {v : Nat → Byte}
    {m m' : Mem} {o : Option Word} (hr : r.WF hdr) (ha : Gives hdr r alloc) (h : allocObject alloc size v m = (o, m')) :
    (o = none ∧ m' = m) ∨ ∃ p, o = some p ∧ Becomes m m' p.toNat size.toNat v ∧
      r.base.toNat + hdr.toNat ≤ p.toNat ∧ p.toNat + size.toNat ≤ r.top.toNat := by
  unfold allocObject at h
  split at h
  · cases h; exact .inl ⟨rfl, rfl⟩
  · rename_i p hal
    simp only [Prod.mk.injEq] at h
    obtain ⟨rfl, rfl⟩ := h
    obtain ⟨sz, hsz, he⟩ := (allocInSandbox_exact alloc size 1).2 (by have := size.isLt; simpa using this)
    rw [he] at hal
    have hc := (contains_iff hdr r hr p sz).1 (ha sz p hal)
    have htop := r.top.isLt
    have hsz' : sz.toNat = size.toNat := by simpa using hsz
    exact .inr ⟨p, rfl, fill_becomes v m p size.toNat (by omega), hc.1, by omega⟩

/-- **C103** (partial: for a count of type `size_t`).  `alloc<T>(n)` makes `n` objects, all zero, inside the sandbox.
The full claim, for a count of any integer type, is false: `count_ignored`, `neighbour_hit`. -/
theorem count_respected_partial {hdr : Word} {r : Region} {alloc : Word → Option Word} {size n p : Word} {v : Nat → Byte}
    {m m' : Mem} (hr : r.WF hdr) (ha : Gives hdr r alloc) (hs : size ≠ 0)
    (h : allocCall alloc .unsignedLong size n v m = (some p, m')) :
    Becomes m m' p.toNat (n.toNat * size.toNat) (fun _ => 0) ∧
      r.base.toNat + hdr.toNat ≤ p.toNat ∧ p.toNat + n.toNat * size.toNat ≤ r.top.toNat :=
  array_zeroed hr ha hs h

/-- **C103**, the negation.  For a count of any other type, an `int` literal for example, the result does not depend on the
count: one object is made, of which the count becomes the value, and nothing behind it is initialised. -/
theorem count_ignored {hdr : Word} {r : Region} {alloc : Word → Option Word} {ty : IntTy} {size n p : Word} {v : Nat → Byte}
    {m m' : Mem} (hr : r.WF hdr) (ha : Gives hdr r alloc) (ht : ty ≠ .unsignedLong)
    (h : allocCall alloc ty size n v m = (some p, m')) :
    Becomes m m' p.toNat size.toNat v ∧ ∀ k, allocCall alloc ty size k v m = (some p, m') := by
  simp only [allocCall, if_neg ht] at h ⊢
  rcases object_written hr ha h with ⟨h1, -⟩ | ⟨q, h1, h2, -⟩
  · cases h1
  · cases h1; exact ⟨h2, fun _ => h⟩

/-- An allocator that gives the block at 0x11000 if it is not too large. -/
def exAlloc (sz : Word) : Option Word := if sz ≤ 0x1000 then some 0x11000 else none

theorem exGives : Gives 0x400 ⟨0x10400, 0x20000⟩ exAlloc := by
  intro sz p h
  unfold exAlloc at h
  split at h
  · rename_i hs
    cases h
    rw [contains_iff _ _ (by simp [Region.WF])]
    simp
    bv_omega
  · cases h

/-- Three objects of eight bytes. -/
example : ∃ m', allocArray exAlloc 8 3 (fun _ => 7) = (some 0x11000, m') ∧
    Becomes (fun _ => 7) m' 0x11000 24 (fun _ => 0) :=
  ⟨_, rfl, (array_zeroed (size := 8) (count := 3) (hdr := 0x400) (r := ⟨0x10400, 0x20000⟩) (by simp [Region.WF]) exGives (by decide) rfl).1⟩

/-- A number of objects whose size does not fit 64 bits. -/
example (m : Mem) : allocArray exAlloc 8 0x4000000000000000 m = (none, m) := by
  rcases h : allocArray exAlloc 8 0x4000000000000000 m with ⟨o, m'⟩
  obtain ⟨h1, h2⟩ := array_none h
  have := h1 (by decide)
  rw [this, h2 this]

/-- One object of four bytes. -/
example : ∃ m', allocObject exAlloc 4 (fun i => i.toUInt8) (fun _ => 7) = (some 0x11000, m') ∧
    Becomes (fun _ => 7) m' 0x11000 4 (fun i => i.toUInt8) := by
  refine ⟨_, rfl, ?_⟩
  rcases object_written (hdr := 0x400) (r := ⟨0x10400, 0x20000⟩) (alloc := exAlloc) (size := 4)
    (v := fun i => i.toUInt8) (m := fun _ => 7) (by simp [Region.WF]) exGives rfl with h | ⟨p, h1, h2, -⟩
  · cases h.1
  · cases h1; exact h2

/-- **C103**, the negation.  The block has the size of one object, so the second element of the supposed array can be
another object: with an allocator that gives the blocks of two bytes at 0x11000 and 0x11002 one after the other, both inside
the sandbox, element 1 of the first array is the second array, whatever the counts. -/
theorem neighbour_hit (ty : IntTy) (ht : ty ≠ .unsignedLong) (n k : Word) (v w : Nat → Byte) (m : Mem) :
    ∃ first second : Word → Option Word, Gives 0x400 ⟨0x10400, 0x20000⟩ first ∧ Gives 0x400 ⟨0x10400, 0x20000⟩ second ∧
      ∃ p q m1 m2, allocCall first ty 2 n v m = (some p, m1) ∧ allocCall second ty 2 k w m1 = (some q, m2) ∧
        q = p + 2 * 1 ∧ m2 (p + 2 * 1) = w 0 := by
  refine ⟨fun sz => if sz = 2 then some 0x11000 else none, fun sz => if sz = 2 then some 0x11002 else none, ?_, ?_,
    0x11000, 0x11002, fill v m 0x11000 2, fill w (fill v m 0x11000 2) 0x11002 2, ?_, ?_, rfl, ?_⟩
  · intro sz p h
    simp only at h
    split at h
    · next e => subst e; cases h; decide
    · cases h
  · intro sz p h
    simp only at h
    split at h
    · next e => subst e; cases h; decide
    · cases h
  · simp [allocCall, ht, allocObject, allocInSandbox, umul]
  · simp [allocCall, ht, allocObject, allocInSandbox, umul]
  · simp [fill, write]

/-- `alloc<char>(100)`: the literal is an `int`, and one `char` with the value 100 is made; `alloc<char>(size_t{100})`. -/
example : (allocCall exAlloc .int 1 100 (fun _ => 100) (fun _ => 7)).1 = some 0x11000 ∧
    (allocCall exAlloc .int 1 100 (fun _ => 100) (fun _ => 7)).2 0x11000 = 100 ∧
    (allocCall exAlloc .int 1 100 (fun _ => 100) (fun _ => 7)).2 0x11001 = 7 ∧
    (allocCall exAlloc .unsignedLong 1 3 (fun _ => 100) (fun _ => 7)).1 = some 0x11000 ∧
    (allocCall exAlloc .unsignedLong 1 3 (fun _ => 100) (fun _ => 7)).2 0x11002 = 0 := by decide

end Verif.Alloc
